import Verif.Lemmas.UintOptStmt
import Verif.Spec.ZirPlain

/-
Lemmas on the range analysis: plain programs are regular.
-/

set_option linter.unusedSectionVars false
set_option linter.unusedSimpArgs false

namespace Zok.Uo
open Fld
variable {p : ℕ} {Z : Type} [Fact p.Prime] {ids : Ids p} {Γ : TCtx} {V : FullVars}

/-- The table gives the full range to these variables. -/
def IdsFull (V : FullVars) (ids : Ids p) : Prop := ∀ x w, V x w = true → WidthOk p w → ∀ m, ids x w = some m → m.max.val = 2 ^ w - 1

theorem forceReduce_amax {e e' : UExpr (ZMod p)} (h : forceReduce e = some e') : e'.amax = e.amax ∧ (RegU e → RegU e') := by
  obtain ⟨w, _ | m, i⟩ := e
  · cases h
  · simp only [forceReduce, Option.some.injEq] at h
    subst h
    exact ⟨rfl, regU_info rfl⟩

theorem forceNoReduce_amax {e e' : UExpr (ZMod p)} (h : forceNoReduce e = some e') :
    e'.amax = e.amax ∧ (RegU e → RegU e') := by
  obtain ⟨w, _ | m, i⟩ := e
  · cases h
  · simp only [forceNoReduce] at h
    split at h
    · cases h
      exact ⟨rfl, regU_info rfl⟩
    · cases h

theorem forceIf_amax {b : Bool} {e e' : UExpr (ZMod p)} (h : forceIf b e = some e') :
    e'.amax = e.amax ∧ (RegU e → RegU e') := by
  cases b
  · exact forceNoReduce_amax h
  · exact forceReduce_amax h

theorem maxOf_amax {e : UExpr (ZMod p)} {m : ZMod p} (h : maxOf e = some m) : e.amax = m.val := by
  obtain ⟨w, _ | m, i⟩ := e
  · cases h
  · cases h; rfl

theorem tryFrom_val {n : ℕ} {m : ZMod p} (h : Fld.tryFromBiguint p n = some m) : m.val = n := by
  unfold Fld.tryFromBiguint at h
  split at h
  · rename_i hn
    cases h
    have h1 : n ≤ p - 1 := le_trans hn (Nat.le_sub_one_of_lt (ZMod.val_lt _))
    have := (Fact.out : p.Prime).pos
    exact val_natCast_of_lt (by omega)
  · cases h

theorem maxOfAll_full {k : ℕ} : ∀ {es : List (UExpr (ZMod p))} {n : ℕ}, (∀ e ∈ es, e.amax = k) →
    maxOfAll es = some n → n = k
  | [], n, _, h => by cases h
  | [e], n, ha, h => by
    simp only [maxOfAll, Option.map_eq_some_iff] at h
    obtain ⟨m, h1, rfl⟩ := h
    rw [← maxOf_amax h1]; exact ha e (by simp)
  | e :: e2 :: es, n, ha, h => by
    simp only [maxOfAll, Option.bind_eq_bind, Option.bind_eq_some_iff, Option.some.injEq] at h
    obtain ⟨m, h1, n2, h2, rfl⟩ := h
    have h3 := maxOfAll_full (fun e he => ha e (by simp [he])) h2
    have h4 := ha e (by simp)
    rw [maxOf_amax h1] at h4
    omega

section
variable (hI : IdsFull V ids)
include hI

mutual
theorem uoU_full : ∀ (e : UExpr (ZMod p)) {e' : UExpr (ZMod p)}, WtU Γ e → fullU V e = true → uoU ids e = some e' →
    e'.amax = 2 ^ e.width - 1
  | .mk w (some m) i, _, hw, _, _ => by simp [WtU] at hw
  | .mk w none i, e', hw, hp, h => by
    simp only [WtU] at hw
    simp only [fullU] at hp
    simp only [uoU] at h
    split at h
    · simp only [Option.bind_eq_bind, Option.bind_eq_some_iff, Option.some.injEq] at h
      obtain ⟨⟨m, i'⟩, h1, rfl⟩ := h
      exact uoUI_full w hw.2.1 i hw.2.2 hp h1
    · cases h
theorem uoUs_full (w : ℕ) : ∀ (es : List (UExpr (ZMod p))) {es' : List (UExpr (ZMod p))}, WtUs Γ w es → fullUs V es = true →
    uoUs ids es = some es' → ∀ e ∈ es', e.amax = 2 ^ w - 1
  | [], es', _, _, h => by cases h; simp
  | e :: es, es', hw, hp, h => by
    simp only [WtUs] at hw
    simp only [fullUs, Bool.and_eq_true] at hp
    simp only [uoUs, Option.bind_eq_bind, Option.bind_eq_some_iff, Option.some.injEq] at h
    obtain ⟨e1, h1, e2, h2, es2, h3, rfl⟩ := h
    intro x hx
    rcases List.mem_cons.1 hx with rfl | hx
    · rw [(forceNoReduce_amax h2).1, uoU_full e hw.1.1 hp.1 h1, hw.1.2]
    · exact uoUs_full w es hw.2 hp.2 h3 x hx
theorem uoUI_full (w : ℕ) (hw0 : WidthOk p w) : ∀ (i : UInner (ZMod p)) {m : UMeta (ZMod p)} {i' : UInner (ZMod p)},
    WtUI Γ w i → fullUI V w i = true → uoUI ids w i = some (m, i') → m.max.val = 2 ^ w - 1
  | .value _, _, _, _, hp, _ => by simp [fullUI] at hp
  | .ident x, m, i', hw, hp, h => by
    simp only [fullUI] at hp
    simp only [uoUI, Option.bind_eq_bind, Option.bind_eq_some_iff, Option.some.injEq, Prod.mk.injEq] at h
    obtain ⟨m', h1, rfl, rfl⟩ := h
    exact hI x w hp hw0 m' h1
  | .select es i, m, i', hw, hp, h => by
    simp only [WtUI] at hw
    simp only [fullUI] at hp
    simp only [uoUI, Option.bind_eq_bind, Option.bind_eq_some_iff, Option.some.injEq, Prod.mk.injEq] at h
    obtain ⟨i1, h1, i2, h2, es2, h3, n, h4, m', h5, rfl, rfl⟩ := h
    rw [withMax, tryFrom_val h5]
    exact maxOfAll_full (uoUs_full w es hw.1 hp h3) h4
  | .cond c t e, m, i', hw, hp, h => by
    simp only [WtUI] at hw
    simp only [fullUI, Bool.and_eq_true] at hp
    simp only [uoUI, Option.bind_eq_bind, Option.bind_eq_some_iff, Option.some.injEq, Prod.mk.injEq] at h
    obtain ⟨c1, h1, t1, h2, e1, h3, tm, h4, em, h5, t2, h6, e2, h7, m', h8, rfl, rfl⟩ := h
    rw [withMax, tryFrom_val h8, ← maxOf_amax h4, ← maxOf_amax h5, uoU_full t hw.2.1 hp.1 h2,
      uoU_full e hw.2.2.1 hp.2 h3, hw.2.2.2.1, hw.2.2.2.2, max_self]
  | .div l r, m, i', hw, hp, h => by
    simp only [uoUI, Option.bind_eq_bind, Option.bind_eq_some_iff, Option.some.injEq, Prod.mk.injEq] at h
    obtain ⟨l1, h1, r1, h2, l2, h3, r2, h4, rfl, rfl⟩ := h
    exact val_rangeMax hw0
  | .rem l r, m, i', hw, hp, h => by
    simp only [uoUI, Option.bind_eq_bind, Option.bind_eq_some_iff, Option.some.injEq, Prod.mk.injEq] at h
    obtain ⟨l1, h1, r1, h2, l2, h3, r2, h4, rfl, rfl⟩ := h
    exact val_rangeMax hw0
  | .xor l r, m, i', hw, hp, h => by
    simp only [uoUI, Option.bind_eq_bind, Option.bind_eq_some_iff, Option.some.injEq, Prod.mk.injEq] at h
    obtain ⟨l1, h1, r1, h2, l2, h3, r2, h4, rfl, rfl⟩ := h
    exact val_rangeMax hw0
  | .and l r, m, i', hw, hp, h => by
    simp only [uoUI, Option.bind_eq_bind, Option.bind_eq_some_iff, Option.some.injEq, Prod.mk.injEq] at h
    obtain ⟨l1, h1, r1, h2, l2, h3, r2, h4, rfl, rfl⟩ := h
    exact val_rangeMax hw0
  | .or l r, m, i', hw, hp, h => by
    simp only [uoUI, Option.bind_eq_bind, Option.bind_eq_some_iff, Option.some.injEq, Prod.mk.injEq] at h
    obtain ⟨l1, h1, r1, h2, l2, h3, r2, h4, rfl, rfl⟩ := h
    exact val_rangeMax hw0
  | .not l, m, i', hw, hp, h => by
    simp only [uoUI, Option.bind_eq_bind, Option.bind_eq_some_iff, Option.some.injEq, Prod.mk.injEq] at h
    obtain ⟨l1, h1, l2, h3, rfl, rfl⟩ := h
    exact val_rangeMax hw0
  | .add l r, m, i', hw, hp, h => by simp [fullUI] at hp
  | .sub l r, m, i', hw, hp, h => by simp [fullUI] at hp
  | .mult l r, m, i', hw, hp, h => by simp [fullUI] at hp
  | .leftShift l r, m, i', hw, hp, h => by simp [fullUI] at hp
  | .rightShift l r, m, i', hw, hp, h => by simp [fullUI] at hp
end

theorem uoU_below {e e' : UExpr (ZMod p)} (hw : WtU Γ e) (hp : belowU V e = true) (h : uoU ids e = some e') :
    e'.amax < 2 ^ e.width := by
  have h0 : 0 < 2 ^ e.width := by positivity
  simp only [belowU, Bool.or_eq_true] at hp
  rcases hp with hp | hp
  · rw [uoU_full hI e hw hp h]; omega
  · obtain ⟨w, _ | m, i⟩ := e
    · cases i with
      | value n =>
        simp only [WtU, WtUI] at hw
        simp only [uoU] at h
        split at h
        · simp only [uoUI, Option.bind_eq_bind, Option.bind_some, Option.some.injEq] at h
          subst h
          have h1 := hw.2.1.room'
          have h2 := bound_lt_p hw.2.1
          have h3 : ((n : ZMod p)).val = n := val_natCast_of_lt (by omega)
          simp only [UExpr.amax, UExpr.info, withMax, UExpr.width]
          simp only [Option.elim, h3]
          exact hw.2.2
        · cases h
      | _ => simp [isValue] at hp
    · simp [WtU] at hw
end

theorem leftShift_regular {w k : ℕ} {mx : ZMod p} (h : mx.val = 2 ^ w - 1) (n : ℕ) :
    (n * 2 ^ k) % 2 ^ w ≤ leftShiftMax w k mx := by
  unfold leftShiftMax
  rw [h, Nat.and_two_pow_sub_one_eq_mod, Nat.shiftLeft_eq]
  rcases Nat.le_total w k with hk | hk
  · rw [Nat.mod_eq_zero_of_dvd (Dvd.dvd.mul_left (pow_dvd_pow 2 hk) n)]; omega
  · obtain ⟨d, rfl⟩ := Nat.exists_eq_add_of_le hk
    have e : ∀ a, a * 2 ^ k % 2 ^ (k + d) = 2 ^ k * (a % 2 ^ d) := fun a => by
      rw [pow_add, mul_comm a, Nat.mul_mod_mul_left]
    rw [e, e]
    apply Nat.mul_le_mul_left
    have h1 : (2 ^ (k + d) - 1) % 2 ^ d = 2 ^ d - 1 := by
      have h2 : 2 ^ (k + d) - 1 = (2 ^ d - 1) + 2 ^ d * (2 ^ k - 1) := by
        have := Nat.one_le_two_pow (n := d)
        have := Nat.one_le_two_pow (n := k)
        rw [Nat.mul_sub, pow_add, mul_comm (2 ^ k)]
        have : 2 ^ d ≤ 2 ^ d * 2 ^ k := Nat.le_mul_of_pos_right _ (by positivity)
        omega
      rw [h2, Nat.add_mul_mod_self_left, Nat.mod_eq_of_lt]
      have := Nat.one_le_two_pow (n := d)
      omega
    have := Nat.mod_lt n (show 2 ^ d > 0 by positivity)
    omega

theorem rightShift_regular {w k : ℕ} {mx : ZMod p} (h : mx.val < 2 ^ w) {n : ℕ} (hn : n ≤ mx.val) :
    n / 2 ^ k ≤ rightShiftMax w k mx := by
  unfold rightShiftMax
  rw [Nat.and_two_pow_sub_one_eq_mod, Nat.mod_eq_of_lt h, Nat.shiftRight_eq_div_pow]
  exact Nat.div_le_div_right hn

section
variable (hI : IdsFull V ids)
include hI

set_option maxHeartbeats 2000000 in
mutual
theorem uoF_reg : ∀ (e : FExpr (ZMod p)) {e' : FExpr (ZMod p)}, WtF Γ e → plainF V e = true →
    uoF ids e = some e' → RegF e'
  | .value _, _, _, _, h => by cases h; simp only [RegF]
  | .ident _, _, _, _, h => by cases h; simp only [RegF]
  | .select es i, e', hw, hp, h => by
    simp only [WtF] at hw
    simp only [plainF, Bool.and_eq_true] at hp
    simp only [uoF, Option.bind_eq_bind, Option.bind_eq_some_iff, Option.some.injEq] at h
    obtain ⟨es1, h1, i1, h2, i2, h3, rfl⟩ := h
    simp only [RegF]
    exact ⟨uoFs_reg es hw.1 hp.1 h1, (forceReduce_amax h3).2 (uoU_reg i hw.2.2.1 hp.2 h2)⟩
  | .add l r, e', hw, hp, h => by
    simp only [WtF] at hw
    simp only [plainF, Bool.and_eq_true] at hp
    simp only [uoF, Option.bind_eq_bind, Option.bind_eq_some_iff, Option.some.injEq] at h
    obtain ⟨l1, h1, r1, h2, rfl⟩ := h
    simp only [RegF]
    exact ⟨uoF_reg l hw.1 hp.1 h1, uoF_reg r hw.2 hp.2 h2⟩
  | .sub l r, e', hw, hp, h => by
    simp only [WtF] at hw
    simp only [plainF, Bool.and_eq_true] at hp
    simp only [uoF, Option.bind_eq_bind, Option.bind_eq_some_iff, Option.some.injEq] at h
    obtain ⟨l1, h1, r1, h2, rfl⟩ := h
    simp only [RegF]
    exact ⟨uoF_reg l hw.1 hp.1 h1, uoF_reg r hw.2 hp.2 h2⟩
  | .mult l r, e', hw, hp, h => by
    simp only [WtF] at hw
    simp only [plainF, Bool.and_eq_true] at hp
    simp only [uoF, Option.bind_eq_bind, Option.bind_eq_some_iff, Option.some.injEq] at h
    obtain ⟨l1, h1, r1, h2, rfl⟩ := h
    simp only [RegF]
    exact ⟨uoF_reg l hw.1 hp.1 h1, uoF_reg r hw.2 hp.2 h2⟩
  | .div l r, e', hw, hp, h => by
    simp only [WtF] at hw
    simp only [plainF, Bool.and_eq_true] at hp
    simp only [uoF, Option.bind_eq_bind, Option.bind_eq_some_iff, Option.some.injEq] at h
    obtain ⟨l1, h1, r1, h2, rfl⟩ := h
    simp only [RegF]
    exact ⟨uoF_reg l hw.1 hp.1 h1, uoF_reg r hw.2 hp.2 h2⟩
  | .pow l r, e', hw, hp, h => by
    simp only [WtF] at hw
    simp only [plainF] at hp
    simp only [uoF, Option.bind_eq_bind, Option.bind_eq_some_iff, Option.some.injEq] at h
    obtain ⟨l1, h1, r1, h2, rfl⟩ := h
    simp only [RegF]
    obtain ⟨n, m, hn, e3, e2⟩ := literal_fold (ids := ids) hw.2
    rw [e2] at h2
    cases h2
    exact ⟨uoF_reg l hw.1 hp h1, regU_literal⟩
  | .and _ _, _, hw, _, _ => by simp only [WtF] at hw
  | .or _ _, _, hw, _, _ => by simp only [WtF] at hw
  | .xor _ _, _, hw, _, _ => by simp only [WtF] at hw
  | .leftShift _ _, _, hw, _, _ => by simp only [WtF] at hw
  | .rightShift _ _, _, hw, _, _ => by simp only [WtF] at hw
  | .cond c l r, e', hw, hp, h => by
    simp only [WtF] at hw
    simp only [plainF, Bool.and_eq_true] at hp
    simp only [uoF, Option.bind_eq_bind, Option.bind_eq_some_iff, Option.some.injEq] at h
    obtain ⟨c1, h0, l1, h1, r1, h2, rfl⟩ := h
    simp only [RegF]
    exact ⟨uoB_reg c hw.1 hp.1.1 h0, uoF_reg l hw.2.1 hp.1.2 h1, uoF_reg r hw.2.2 hp.2 h2⟩
theorem uoFs_reg : ∀ (es : List (FExpr (ZMod p))) {es' : List (FExpr (ZMod p))}, WtFs Γ es → plainFs V es = true →
    uoFs ids es = some es' → RegFs es'
  | [], _, _, _, h => by cases h; simp only [RegFs]
  | e :: es, es', hw, hp, h => by
    simp only [WtFs] at hw
    simp only [plainFs, Bool.and_eq_true] at hp
    simp only [uoFs, Option.bind_eq_bind, Option.bind_eq_some_iff, Option.some.injEq] at h
    obtain ⟨l1, h1, r1, h2, rfl⟩ := h
    simp only [RegFs]
    exact ⟨uoF_reg e hw.1 hp.1 h1, uoFs_reg es hw.2 hp.2 h2⟩
theorem uoB_reg : ∀ (e : BExpr (ZMod p)) {e' : BExpr (ZMod p)}, WtB Γ e → plainB V e = true →
    uoB ids e = some e' → RegB e'
  | .value _, _, _, _, h => by cases h; simp only [RegB]
  | .ident _, _, _, _, h => by cases h; simp only [RegB]
  | .select es i, e', hw, hp, h => by
    simp only [WtB] at hw
    simp only [plainB, Bool.and_eq_true] at hp
    simp only [uoB, Option.bind_eq_bind, Option.bind_eq_some_iff, Option.some.injEq] at h
    obtain ⟨es1, h1, i1, h2, i2, h3, rfl⟩ := h
    simp only [RegB]
    exact ⟨uoBs_reg es hw.1 hp.1 h1, (forceReduce_amax h3).2 (uoU_reg i hw.2.2.1 hp.2 h2)⟩
  | .fieldLt l r, e', hw, hp, h => by
    simp only [WtB] at hw
    simp only [plainB, Bool.and_eq_true] at hp
    simp only [uoB, Option.bind_eq_bind, Option.bind_eq_some_iff, Option.some.injEq] at h
    obtain ⟨l1, h1, r1, h2, rfl⟩ := h
    simp only [RegB]
    exact ⟨uoF_reg l hw.1 hp.1 h1, uoF_reg r hw.2 hp.2 h2⟩
  | .fieldLe l r, e', hw, hp, h => by
    simp only [WtB] at hw
    simp only [plainB, Bool.and_eq_true] at hp
    simp only [uoB, Option.bind_eq_bind, Option.bind_eq_some_iff, Option.some.injEq] at h
    obtain ⟨l1, h1, r1, h2, rfl⟩ := h
    simp only [RegB]
    exact ⟨uoF_reg l hw.1 hp.1 h1, uoF_reg r hw.2 hp.2 h2⟩
  | .fieldEq l r, e', hw, hp, h => by
    simp only [WtB] at hw
    simp only [plainB, Bool.and_eq_true] at hp
    simp only [uoB, Option.bind_eq_bind, Option.bind_eq_some_iff, Option.some.injEq] at h
    obtain ⟨l1, h1, r1, h2, rfl⟩ := h
    simp only [RegB]
    exact ⟨uoF_reg l hw.1 hp.1 h1, uoF_reg r hw.2 hp.2 h2⟩
  | .uintLt l r, e', hw, hp, h => by
    simp only [WtB] at hw
    simp only [plainB, Bool.and_eq_true] at hp
    simp only [uoB, Option.bind_eq_bind, Option.bind_eq_some_iff, Option.some.injEq] at h
    obtain ⟨l1, h1, r1, h2, l2, h3, r2, h4, rfl⟩ := h
    simp only [RegB]
    exact ⟨(forceReduce_amax h3).2 (uoU_reg l hw.1 hp.1 h1), (forceReduce_amax h4).2 (uoU_reg r hw.2.1 hp.2 h2)⟩
  | .uintLe l r, e', hw, hp, h => by
    simp only [WtB] at hw
    simp only [plainB, Bool.and_eq_true] at hp
    simp only [uoB, Option.bind_eq_bind, Option.bind_eq_some_iff, Option.some.injEq] at h
    obtain ⟨l1, h1, r1, h2, l2, h3, r2, h4, rfl⟩ := h
    simp only [RegB]
    exact ⟨(forceReduce_amax h3).2 (uoU_reg l hw.1 hp.1 h1), (forceReduce_amax h4).2 (uoU_reg r hw.2.1 hp.2 h2)⟩
  | .uintEq l r, e', hw, hp, h => by
    simp only [WtB] at hw
    simp only [plainB, Bool.and_eq_true] at hp
    simp only [uoB, Option.bind_eq_bind, Option.bind_eq_some_iff, Option.some.injEq] at h
    obtain ⟨l1, h1, r1, h2, l2, h3, r2, h4, rfl⟩ := h
    simp only [RegB]
    exact ⟨(forceReduce_amax h3).2 (uoU_reg l hw.1 hp.1 h1), (forceReduce_amax h4).2 (uoU_reg r hw.2.1 hp.2 h2)⟩
  | .boolEq l r, e', hw, hp, h => by
    simp only [WtB] at hw
    simp only [plainB, Bool.and_eq_true] at hp
    simp only [uoB, Option.bind_eq_bind, Option.bind_eq_some_iff, Option.some.injEq] at h
    obtain ⟨l1, h1, r1, h2, rfl⟩ := h
    simp only [RegB]
    exact ⟨uoB_reg l hw.1 hp.1 h1, uoB_reg r hw.2 hp.2 h2⟩
  | .or l r, e', hw, hp, h => by
    simp only [WtB] at hw
    simp only [plainB, Bool.and_eq_true] at hp
    simp only [uoB, Option.bind_eq_bind, Option.bind_eq_some_iff, Option.some.injEq] at h
    obtain ⟨l1, h1, r1, h2, rfl⟩ := h
    simp only [RegB]
    exact ⟨uoB_reg l hw.1 hp.1 h1, uoB_reg r hw.2 hp.2 h2⟩
  | .and l r, e', hw, hp, h => by
    simp only [WtB] at hw
    simp only [plainB, Bool.and_eq_true] at hp
    simp only [uoB, Option.bind_eq_bind, Option.bind_eq_some_iff, Option.some.injEq] at h
    obtain ⟨l1, h1, r1, h2, rfl⟩ := h
    simp only [RegB]
    exact ⟨uoB_reg l hw.1 hp.1 h1, uoB_reg r hw.2 hp.2 h2⟩
  | .not l, e', hw, hp, h => by
    simp only [WtB] at hw
    simp only [plainB] at hp
    simp only [uoB, Option.bind_eq_bind, Option.bind_eq_some_iff, Option.some.injEq] at h
    obtain ⟨l1, h1, rfl⟩ := h
    simp only [RegB]
    exact uoB_reg l hw hp h1
  | .cond c l r, e', hw, hp, h => by
    simp only [WtB] at hw
    simp only [plainB, Bool.and_eq_true] at hp
    simp only [uoB, Option.bind_eq_bind, Option.bind_eq_some_iff, Option.some.injEq] at h
    obtain ⟨c1, h0, l1, h1, r1, h2, rfl⟩ := h
    simp only [RegB]
    exact ⟨uoB_reg c hw.1 hp.1.1 h0, uoB_reg l hw.2.1 hp.1.2 h1, uoB_reg r hw.2.2 hp.2 h2⟩
theorem uoBs_reg : ∀ (es : List (BExpr (ZMod p))) {es' : List (BExpr (ZMod p))}, WtBs Γ es → plainBs V es = true →
    uoBs ids es = some es' → RegBs es'
  | [], _, _, _, h => by cases h; simp only [RegBs]
  | e :: es, es', hw, hp, h => by
    simp only [WtBs] at hw
    simp only [plainBs, Bool.and_eq_true] at hp
    simp only [uoBs, Option.bind_eq_bind, Option.bind_eq_some_iff, Option.some.injEq] at h
    obtain ⟨l1, h1, r1, h2, rfl⟩ := h
    simp only [RegBs]
    exact ⟨uoB_reg e hw.1 hp.1 h1, uoBs_reg es hw.2 hp.2 h2⟩
theorem uoU_reg : ∀ (e : UExpr (ZMod p)) {e' : UExpr (ZMod p)}, WtU Γ e → plainU V e = true →
    uoU ids e = some e' → RegU e'
  | .mk w (some m) i, _, hw, _, _ => by simp [WtU] at hw
  | .mk w none i, e', hw, hp, h => by
    simp only [WtU] at hw
    simp only [plainU] at hp
    simp only [uoU] at h
    split at h
    · simp only [Option.bind_eq_bind, Option.bind_eq_some_iff, Option.some.injEq] at h
      obtain ⟨⟨m, i'⟩, h1, rfl⟩ := h
      simp only [RegU]
      exact uoUI_reg w hw.2.1 i hw.2.2 hp h1
    · cases h
theorem uoUs_reg (w : ℕ) : ∀ (es : List (UExpr (ZMod p))) {es' : List (UExpr (ZMod p))}, WtUs Γ w es → plainUs V es = true →
    uoUs ids es = some es' → RegUs es'
  | [], _, _, _, h => by cases h; simp only [RegUs]
  | e :: es, es', hw, hp, h => by
    simp only [WtUs] at hw
    simp only [plainUs, Bool.and_eq_true] at hp
    simp only [uoUs, Option.bind_eq_bind, Option.bind_eq_some_iff, Option.some.injEq] at h
    obtain ⟨l1, h1, l2, h3, r1, h2, rfl⟩ := h
    simp only [RegUs]
    exact ⟨(forceNoReduce_amax h3).2 (uoU_reg e hw.1.1 hp.1 h1), uoUs_reg w es hw.2 hp.2 h2⟩
theorem uoUI_reg (w : ℕ) (hw0 : WidthOk p w) : ∀ (i : UInner (ZMod p)) {m : UMeta (ZMod p)} {i' : UInner (ZMod p)},
    WtUI Γ w i → plainUI V i = true → uoUI ids w i = some (m, i') →
    NodeRegular p w (UExpr.amax (.mk w (some m) i')) i' ∧ RegUI i'
  | .value _, _, _, _, _, h => by cases h; simp [NodeRegular, RegUI]
  | .ident x, m, i', hw, hp, h => by
    simp only [uoUI, Option.bind_eq_bind, Option.bind_eq_some_iff, Option.some.injEq, Prod.mk.injEq] at h
    obtain ⟨m', h1, rfl, rfl⟩ := h
    simp [NodeRegular, RegUI]
  | .select es i, m, i', hw, hp, h => by
    simp only [WtUI] at hw
    simp only [plainUI, Bool.and_eq_true] at hp
    simp only [uoUI, Option.bind_eq_bind, Option.bind_eq_some_iff, Option.some.injEq, Prod.mk.injEq] at h
    obtain ⟨i1, h1, i2, h2, es2, h3, n, h4, m', h5, rfl, rfl⟩ := h
    simp only [NodeRegular, RegUI, true_and]
    exact ⟨uoUs_reg w es hw.1 hp.1 h3, (forceReduce_amax h2).2 (uoU_reg i hw.2.2.2.1 hp.2 h1)⟩
  | .cond c t e, m, i', hw, hp, h => by
    simp only [WtUI] at hw
    simp only [plainUI, Bool.and_eq_true] at hp
    simp only [uoUI, Option.bind_eq_bind, Option.bind_eq_some_iff, Option.some.injEq, Prod.mk.injEq] at h
    obtain ⟨c1, h1, t1, h2, e1, h3, tm, h4, em, h5, t2, h6, e2, h7, m', h8, rfl, rfl⟩ := h
    simp only [NodeRegular, RegUI, true_and]
    exact ⟨uoB_reg c hw.1 hp.1.1 h1, (forceNoReduce_amax h6).2 (uoU_reg t hw.2.1 hp.1.2 h2),
      (forceNoReduce_amax h7).2 (uoU_reg e hw.2.2.1 hp.2 h3)⟩
  | .div l r, m, i', hw, hp, h => by
    simp only [WtUI] at hw
    simp only [plainUI, Bool.and_eq_true] at hp
    simp only [uoUI, Option.bind_eq_bind, Option.bind_eq_some_iff, Option.some.injEq, Prod.mk.injEq] at h
    obtain ⟨l1, h1, r1, h2, l2, h3, r2, h4, rfl, rfl⟩ := h
    simp only [NodeRegular, RegUI, true_and]
    exact ⟨(forceReduce_amax h3).2 (uoU_reg l hw.1 hp.1 h1), (forceReduce_amax h4).2 (uoU_reg r hw.2.1 hp.2 h2)⟩
  | .rem l r, m, i', hw, hp, h => by
    simp only [WtUI] at hw
    simp only [plainUI, Bool.and_eq_true] at hp
    simp only [uoUI, Option.bind_eq_bind, Option.bind_eq_some_iff, Option.some.injEq, Prod.mk.injEq] at h
    obtain ⟨l1, h1, r1, h2, l2, h3, r2, h4, rfl, rfl⟩ := h
    simp only [NodeRegular, RegUI, true_and]
    exact ⟨(forceReduce_amax h3).2 (uoU_reg l hw.1 hp.1 h1), (forceReduce_amax h4).2 (uoU_reg r hw.2.1 hp.2 h2)⟩
  | .xor l r, m, i', hw, hp, h => by
    simp only [WtUI] at hw
    simp only [plainUI, Bool.and_eq_true] at hp
    simp only [uoUI, Option.bind_eq_bind, Option.bind_eq_some_iff, Option.some.injEq, Prod.mk.injEq] at h
    obtain ⟨l1, h1, r1, h2, l2, h3, r2, h4, rfl, rfl⟩ := h
    simp only [NodeRegular, RegUI, true_and]
    exact ⟨(forceReduce_amax h3).2 (uoU_reg l hw.1 hp.1 h1), (forceReduce_amax h4).2 (uoU_reg r hw.2.1 hp.2 h2)⟩
  | .and l r, m, i', hw, hp, h => by
    simp only [WtUI] at hw
    simp only [plainUI, Bool.and_eq_true] at hp
    simp only [uoUI, Option.bind_eq_bind, Option.bind_eq_some_iff, Option.some.injEq, Prod.mk.injEq] at h
    obtain ⟨l1, h1, r1, h2, l2, h3, r2, h4, rfl, rfl⟩ := h
    simp only [NodeRegular, RegUI, true_and]
    exact ⟨(forceReduce_amax h3).2 (uoU_reg l hw.1 hp.1 h1), (forceReduce_amax h4).2 (uoU_reg r hw.2.1 hp.2 h2)⟩
  | .or l r, m, i', hw, hp, h => by
    simp only [WtUI] at hw
    simp only [plainUI, Bool.and_eq_true] at hp
    simp only [uoUI, Option.bind_eq_bind, Option.bind_eq_some_iff, Option.some.injEq, Prod.mk.injEq] at h
    obtain ⟨l1, h1, r1, h2, l2, h3, r2, h4, rfl, rfl⟩ := h
    simp only [NodeRegular, RegUI, true_and]
    exact ⟨(forceReduce_amax h3).2 (uoU_reg l hw.1 hp.1 h1), (forceReduce_amax h4).2 (uoU_reg r hw.2.1 hp.2 h2)⟩
  | .not l, m, i', hw, hp, h => by
    simp only [WtUI] at hw
    simp only [plainUI] at hp
    simp only [uoUI, Option.bind_eq_bind, Option.bind_eq_some_iff, Option.some.injEq, Prod.mk.injEq] at h
    obtain ⟨l1, h1, l2, h3, rfl, rfl⟩ := h
    simp only [NodeRegular, RegUI, true_and]
    exact (forceReduce_amax h3).2 (uoU_reg l hw.1 hp h1)
  | .add l r, m, i', hw, hp, h => by
    simp only [WtUI] at hw
    simp only [plainUI, Bool.and_eq_true] at hp
    simp only [uoUI, Option.bind_eq_bind, Option.bind_eq_some_iff, Option.some.injEq, Prod.mk.injEq] at h
    obtain ⟨l1, h1, r1, h2, lm, h3, rm, h4, ⟨bl, br, m'⟩, h5, l2, h6, r2, h7, rfl, rfl⟩ := h
    simp only [NodeRegular, RegUI, true_and]
    exact ⟨(forceIf_amax h6).2 (uoU_reg l hw.1 hp.1 h1), (forceIf_amax h7).2 (uoU_reg r hw.2.1 hp.2 h2)⟩
  | .mult l r, m, i', hw, hp, h => by
    simp only [WtUI] at hw
    simp only [plainUI, Bool.and_eq_true] at hp
    simp only [uoUI, Option.bind_eq_bind, Option.bind_eq_some_iff, Option.some.injEq, Prod.mk.injEq] at h
    obtain ⟨l1, h1, r1, h2, lm, h3, rm, h4, ⟨bl, br, m'⟩, h5, l2, h6, r2, h7, rfl, rfl⟩ := h
    simp only [NodeRegular, RegUI, true_and]
    exact ⟨(forceIf_amax h6).2 (uoU_reg l hw.1 hp.1 h1), (forceIf_amax h7).2 (uoU_reg r hw.2.1 hp.2 h2)⟩
  | .sub l r, m, i', hw, hp, h => by
    simp only [WtUI] at hw
    simp only [plainUI, Bool.and_eq_true] at hp
    simp only [uoUI, Option.bind_eq_bind, Option.bind_eq_some_iff, Option.some.injEq, Prod.mk.injEq] at h
    obtain ⟨l1, h1, r1, h2, lm, h3, rm, h4, ⟨bl, br, m'⟩, h5, l2, h6, r2, h7, rfl, rfl⟩ := h
    simp only [NodeRegular, RegUI]
    refine ⟨?_, (forceIf_amax h6).2 (uoU_reg l hw.1 hp.1.1 h1), (forceIf_amax h7).2 (uoU_reg r hw.2.1 hp.1.2 h2)⟩
    rw [(forceIf_amax h7).1]
    refine lt_of_lt_of_le (uoU_below hI hw.2.1 hp.2 h2) ?_
    rw [hw.2.2.2]
    exact Nat.pow_le_pow_right (by norm_num) (by have := hw0.2; have := hw0.1; omega)
  | .leftShift l r, m, i', hw, hp, h => by
    simp only [WtUI] at hw
    simp only [plainUI, Bool.and_eq_true] at hp
    simp only [uoUI, Option.bind_eq_bind, Option.bind_eq_some_iff, Option.some.injEq, Prod.mk.injEq] at h
    obtain ⟨l1, h1, r1, h2, k, h3, em, h4, m', h5, l2, h6, rfl, rfl⟩ := h
    simp only [NodeRegular, RegUI]
    refine ⟨?_, (forceReduce_amax h6).2 (uoU_reg l hw.1 hp.1 h1), regU_literal⟩
    rintro k' ⟨wb, mb, hk⟩ n hn hn2
    cases hk
    rw [(forceReduce_amax h6).1] at hn2
    have hb := uoU_full hI l hw.1 hp.2 h1
    rw [maxOf_amax h4, hw.2.1] at hb
    rw [maxOf_amax h4] at hn2
    show _ ≤ m'.val
    rw [tryFrom_val h5]
    exact leftShift_regular hb n
  | .rightShift l r, m, i', hw, hp, h => by
    simp only [WtUI] at hw
    simp only [plainUI, Bool.and_eq_true] at hp
    simp only [uoUI, Option.bind_eq_bind, Option.bind_eq_some_iff, Option.some.injEq, Prod.mk.injEq] at h
    obtain ⟨l1, h1, r1, h2, k, h3, em, h4, m', h5, l2, h6, rfl, rfl⟩ := h
    simp only [NodeRegular, RegUI]
    refine ⟨?_, (forceReduce_amax h6).2 (uoU_reg l hw.1 hp.1 h1), regU_literal⟩
    rintro k' ⟨wb, mb, hk⟩ n hn hn2
    cases hk
    rw [(forceReduce_amax h6).1] at hn2
    have hb := uoU_below hI hw.1 hp.2 h1
    rw [maxOf_amax h4, hw.2.1] at hb
    rw [maxOf_amax h4] at hn2
    show _ ≤ m'.val
    rw [tryFrom_val h5]
    exact rightShift_regular hb hn2
end
end

end Zok.Uo
