import Verif.Lemmas.CmpExpr
import Verif.Lemmas.FlatAssert

/-
Completeness of assertions: if the asserted expression is true then the statements emitted for it succeed when they are
computed honestly.
-/

set_option linter.unusedSectionVars false
set_option linter.unusedVariables false

namespace Zok
variable {p : ℕ} {Z : Type} [Fact p.Prime]
variable {sem : SolverSem (ZMod p) Z} {ρ : Assignment (ZMod p)} {L : ZId → Option Variable} {pre : Prop} {Γ : Ctx}
  {env : ZEnv p}

open FlatExpr Fld

namespace Cmp

theorem equalityProduct (err : RuntimeError) (l r z : FlatExpr (ZMod p)) (h : pre → l.val ρ * r.val ρ = z.val ρ) :
    Cmp sem ρ L pre (Flt.equalityAssertion.product err l r z : FlatM p Z _) (fun _ => True) := by
  unfold Flt.equalityAssertion.product Flt.identify
  refine Cmp.bind (linearise z) fun a => Cmp.bind (linearise l) fun b => Cmp.bind (linearise r) fun c => cond ?_
  rintro ⟨⟨⟨hp, h1⟩, h2⟩, h3⟩
  simp only [FlatExpr.val, h1, h2, h3]
  exact (h hp).symm

theorem equalityAssertion (l r : FlatExpr (ZMod p)) (err : RuntimeError) (h : pre → l.val ρ = r.val ρ) :
    Cmp sem ρ L pre (Flt.equalityAssertion l r err : FlatM p Z _) (fun _ => True) := by
  unfold Flt.equalityAssertion
  split
  · exact equalityProduct err _ _ _ fun hp => h hp
  · exact equalityProduct err _ _ _ fun hp => (h hp).symm
  · unfold Flt.identify
    refine Cmp.bind (linearise r) fun a => Cmp.bind (linearise l) fun b => cond ?_
    rintro ⟨⟨hp, h1⟩, h2⟩
    simp only [FlatExpr.val, h1, h2, mul_one]
    exact (h hp).symm

theorem notZeroAssertion (x : FlatExpr (ZMod p)) (h : pre → x.val ρ ≠ 0) :
    Cmp sem ρ L pre (Flt.notZeroAssertion x : FlatM p Z _) (fun _ => True) := by
  unfold Flt.notZeroAssertion
  refine Cmp.bind (define x) fun v => Cmp.bind useSym fun inv => Cmp.bind (direc [1 / ρ v] ?_) fun _ => cond ?_
  · rintro ⟨⟨hp, hv⟩, _⟩
    refine ⟨?_, rfl⟩
    simp only [List.map_cons, List.map_nil, FlatExpr.val]
    exact exec_div _ _ (by rw [hv]; exact h hp)
  · rintro ⟨⟨⟨hp, hv⟩, _⟩, hi⟩
    simp only [List.map_cons, List.map_nil, List.cons.injEq, and_true] at hi
    have hne : ρ v ≠ 0 := by rw [hv]; exact h hp
    simp only [FlatExpr.val, hi]
    rw [div_mul_cancel₀ _ hne]

theorem naiveAssertion {e : BExpr (ZMod p)} (he : CmpB sem env L ρ e) (err : RuntimeError)
    (h : evalB env e = .ok true) :
    Cmp sem ρ L pre (Flt.naiveAssertion e err : FlatM p Z _) (fun _ => True) := by
  unfold Flt.naiveAssertion
  refine Cmp.bind (he true h pre) fun f => Cmp.ite (fun _ => cond ?_) (fun _ => cond ?_)
  · rintro ⟨_, h⟩; simpa [FlatExpr.val, boolF] using h
  · rintro ⟨_, h⟩; rw [h]; simp [FlatExpr.val, boolF]

/-- Comparison assertions. -/
theorem cmpAssertion (R : ℕ → ℕ → Prop) (m : ZMod p)
    {cst : FlatExpr (ZMod p) → ZMod p → RuntimeError → FlatM p Z Unit}
    {dyn : FlatExpr (ZMod p) → FlatExpr (ZMod p) → FlatM p Z (FlatExpr (ZMod p))}
    (a b : FlatExpr (ZMod p)) (err : RuntimeError)
    (hflip : ∀ x y, x ≤ m.val → y ≤ m.val → (R x y → R (m.val - y) (m.val - x)))
    (hcst : ∀ e c, Cmp sem ρ L (R (e.val ρ).val c.val) (cst e c err) (fun _ => True))
    (hdyn : (∀ x, a ≠ .value x) → (∀ x, b ≠ .value x) → Cmp sem ρ L pre (dyn a b) (fun e => e.val ρ = 1))
    (hpre : pre → (a.val ρ).val ≤ m.val ∧ (b.val ρ).val ≤ m.val ∧ R (a.val ρ).val (b.val ρ).val) :
    Cmp sem ρ L pre (Flt.cmpAssertion m cst dyn a b err) (fun _ => True) := by
  unfold Flt.cmpAssertion
  split
  · exact (hcst a _).pre_of fun h => (hpre h).2.2
  · refine (hcst _ _).pre_of fun h => ?_
    obtain ⟨h1, h2, h3⟩ := hpre h
    simp only [FlatExpr.val] at h1 h2 h3 ⊢
    rw [Sound.val_sub_of_le h1, Sound.val_sub_of_le h2]
    exact hflip _ _ h1 h2 h3
  · rename_i h1 h2
    refine Cmp.bind (hdyn (fun x hx => h1 _ hx) fun x hx => h2 _ hx) fun e => cond ?_
    rintro ⟨_, h⟩; simpa [FlatExpr.val] using h

/-- The operands of an assertion on field elements. -/
theorem fieldCmpAssertion (hp : 2 < p) {l r : FExpr (ZMod p)} (hl : CmpF sem env L ρ l) (hr : CmpF sem env L ρ r)
    (strict : Bool) (err : RuntimeError) {a b : ZMod p} (ha : evalF env l = .ok a) (hb : evalF env r = .ok b)
    (hd : cmpDefined p (l.isConst || r.isConst) a b) (hR : if strict then a.val < b.val else a.val ≤ b.val) :
    Cmp sem ρ L pre (Flt.assertion (if strict then .fieldLt l r else .fieldLe l r) err : FlatM p Z _)
      (fun _ => True) := by
  have hrb := requiredBits_ge_two (p := p)
  have hmax : (maxValue p).val = p - 1 := by
    have := val_max_sub (0 : ZMod p); simpa using this
  have main : ∀ x y : FlatExpr (ZMod p), ∀ pre, (pre → (x.val ρ = a ∧ (l.isConst = true → ∃ c, x = .value c)) ∧
      y.val ρ = b ∧ (r.isConst = true → ∃ c, y = .value c)) →
      (∀ c, x ≠ .value c) → (∀ c, y ≠ .value c) → pre → (x.val ρ).val < 2 ^ (requiredBits p - 2) ∧
        (y.val ρ).val < 2 ^ (requiredBits p - 2) := by
    intro x y pre hpre hx hy hp
    obtain ⟨⟨h1, h2⟩, h3, h4⟩ := hpre hp
    rw [h1, h3]
    rcases hd with h | h
    · rw [Bool.or_eq_true] at h
      rcases h with h | h
      · obtain ⟨c, hc⟩ := h2 h; exact absurd hc (hx c)
      · obtain ⟨c, hc⟩ := h4 h; exact absurd hc (hy c)
    · exact h
  cases strict with
  | true =>
    simp only [if_true] at hR ⊢
    unfold Flt.assertion
    refine Cmp.bind (hl a ha pre) fun x => Cmp.bind (hr b hb _) fun y => ?_
    refine cmpAssertion (· < ·) (maxValue p) x y err ?_ ?_ ?_ ?_
    · intro x y hx hy h; omega
    · intro e c; exact (enforceConstantLt e c err (pre := True)).pre_of fun h => ⟨trivial, h⟩
    · intro hx hy
      have hb' := main x y _ (fun (h : (pre ∧ _) ∧ _) => ⟨h.1.2, h.2⟩) hx hy
      refine Cmp.bind ((enforceSafe x y (pre := True)).pre_of fun h => ⟨trivial, hb' h⟩) fun _ => ?_
      refine (((ltCheck x y (requiredBits p - 2) (by omega) (pre := True)).pre_of fun h => ⟨trivial, fun _ _ =>
        hb' h.1⟩).snd (Sound.ltCheck hp x y (requiredBits p - 2) (by omega) (pre := True))
        fun h => ⟨trivial, fun _ _ => hb' h.1⟩).post ?_
      rintro e ⟨⟨⟨_, h1, _⟩, h2, _⟩, _⟩ he
      rw [he, h1, h2]; simp [hR, boolF]
    · rintro ⟨⟨_, h1, _⟩, h2, _⟩
      rw [h1, h2, hmax]
      have := val_lt a; have := val_lt b
      exact ⟨by omega, by omega, hR⟩
  | false =>
    simp only [Bool.false_eq_true, if_false] at hR ⊢
    unfold Flt.assertion
    refine Cmp.bind (hl a ha pre) fun x => Cmp.bind (hr b hb _) fun y => ?_
    refine cmpAssertion (· ≤ ·) (maxValue p) x y err ?_ ?_ ?_ ?_
    · intro x y hx hy h; omega
    · intro e c; exact (enforceConstantLe e c err (pre := True)).pre_of fun h => ⟨trivial, h⟩
    · intro hx hy
      have hb' := main x y _ (fun (h : (pre ∧ _) ∧ _) => ⟨h.1.2, h.2⟩) hx hy
      refine Cmp.bind ((enforceSafe x y (pre := True)).pre_of fun h => ⟨trivial, hb' h⟩) fun _ => ?_
      refine (((leCheck x y (requiredBits p - 2) (by omega) (pre := True)).pre_of fun h => ⟨trivial, fun _ _ =>
        hb' h.1⟩).snd (Sound.leCheck hp x y (requiredBits p - 2) (by omega) (pre := True))
        fun h => ⟨trivial, fun _ _ => hb' h.1⟩).post ?_
      rintro e ⟨⟨⟨_, h1, _⟩, h2, _⟩, _⟩ he
      rw [he, h1, h2]; simp [hR, boolF]
    · rintro ⟨⟨_, h1, _⟩, h2, _⟩
      rw [h1, h2, hmax]
      have := val_lt a; have := val_lt b
      exact ⟨by omega, by omega, hR⟩

/-- The operands of assertions on integers. -/
theorem twoUFields {l r : UExpr (ZMod p)} (hl : CmpU sem env L ρ l) (hr : CmpU sem env L ρ r)
    (sl : SndU Z env L ρ l) (sr : SndU Z env L ρ r)
    (hwl : l.width < requiredBits p) (hw : l.width = r.width) (rl : l.Reduced) (rr : r.Reduced) {n m : ℕ}
    (hn : evalU env l = .ok n) (hm : evalU env r = .ok m) :
    Cmp sem ρ L pre (Flt.twoUFields l r : FlatM p Z _)
      (fun t => n < 2 ^ l.width ∧ m < 2 ^ l.width ∧ (t.1.val ρ).val = n ∧ (t.2.val ρ).val = m) := by
  unfold Flt.twoUFields
  rw [Sound.uField_bind]
  refine Cmp.bind (uField hl sl hwl hn) fun a => ?_
  rw [Sound.uField_bind]
  refine Cmp.bind (uField hr sr (hw ▸ hwl) hm) fun b => Cmp.pure ?_
  rintro ⟨⟨_, a1, _, _, a4⟩, b1, _, _, b4⟩
  exact ⟨a1, hw ▸ b1, a4 rl, b4 rr⟩

/-- Comparison assertions on integers. -/
theorem uintCmpAssertion (hp : 2 < p) {l r : UExpr (ZMod p)} (hl : CmpU sem env L ρ l) (hr : CmpU sem env L ρ r)
    (sl : SndU Z env L ρ l) (sr : SndU Z env L ρ r)
    (h1 : 1 ≤ l.width) (hwl : 2 * l.width + 2 ≤ requiredBits p) (hw : l.width = r.width) (rl : l.Reduced)
    (rr : r.Reduced) (strict : Bool) (err : RuntimeError) {n m : ℕ} (hn : evalU env l = .ok n)
    (hm : evalU env r = .ok m) (hR : if strict then n < m else n ≤ m) :
    Cmp sem ρ L pre (Flt.assertion (if strict then .uintLt l r else .uintLe l r) err : FlatM p Z _)
      (fun _ => True) := by
  have hmax : ((2 : ZMod p) ^ l.width - 1).val = 2 ^ l.width - 1 := Sound.val_two_pow_sub_one (by omega)
  cases strict with
  | true =>
    simp only [if_true] at hR ⊢
    unfold Flt.assertion
    refine Cmp.bind (twoUFields hl hr sl sr (by omega) hw rl rr hn hm) fun t => ?_
    obtain ⟨a, b⟩ := t
    refine cmpAssertion (· < ·) ((2 : ZMod p) ^ l.width - 1) a b err ?_ ?_ ?_ ?_
    · intro x y hx hy h; omega
    · intro e c; exact (enforceConstantLt e c err (pre := True)).pre_of fun h => ⟨trivial, h⟩
    · intro hx hy
      have hb : (pre ∧ n < 2 ^ l.width ∧ m < 2 ^ l.width ∧ (a.val ρ).val = n ∧ (b.val ρ).val = m) →
          (a.val ρ).val < 2 ^ l.width ∧ (b.val ρ).val < 2 ^ l.width := by
        rintro ⟨_, h1, h2, h3, h4⟩; rw [h3, h4]; exact ⟨h1, h2⟩
      refine (((ltCheck a b l.width (by omega) (pre := True)).pre_of fun h => ⟨trivial, fun _ _ =>
        hb h⟩).snd (Sound.ltCheck hp a b l.width (by omega) (pre := True))
        fun h => ⟨trivial, fun _ _ => hb h⟩).post ?_
      rintro e ⟨_, _, _, h3, h4⟩ he
      rw [he, h3, h4]; simp [hR, boolF]
    · rintro ⟨_, h1, h2, h3, h4⟩
      simp only at h3 h4
      rw [h3, h4, hmax]
      exact ⟨by omega, by omega, hR⟩
  | false =>
    simp only [Bool.false_eq_true, if_false] at hR ⊢
    unfold Flt.assertion
    refine Cmp.bind (twoUFields hl hr sl sr (by omega) hw rl rr hn hm) fun t => ?_
    obtain ⟨a, b⟩ := t
    refine cmpAssertion (· ≤ ·) ((2 : ZMod p) ^ l.width - 1) a b err ?_ ?_ ?_ ?_
    · intro x y hx hy h; omega
    · intro e c; exact (enforceConstantLe e c err (pre := True)).pre_of fun h => ⟨trivial, h⟩
    · intro hx hy
      have hb : (pre ∧ n < 2 ^ l.width ∧ m < 2 ^ l.width ∧ (a.val ρ).val = n ∧ (b.val ρ).val = m) →
          (a.val ρ).val < 2 ^ l.width ∧ (b.val ρ).val < 2 ^ l.width := by
        rintro ⟨_, h1, h2, h3, h4⟩; rw [h3, h4]; exact ⟨h1, h2⟩
      refine (((leCheck a b l.width (by omega) (pre := True)).pre_of fun h => ⟨trivial, fun _ _ =>
        hb h⟩).snd (Sound.leCheck hp a b l.width (by omega) (pre := True))
        fun h => ⟨trivial, fun _ _ => hb h⟩).post ?_
      rintro e ⟨_, _, _, h3, h4⟩ he
      rw [he, h3, h4]; simp [hR, boolF]
    · rintro ⟨_, h1, h2, h3, h4⟩
      simp only at h3 h4
      rw [h3, h4, hmax]
      exact ⟨by omega, by omega, hR⟩

end Cmp

/-- Completeness of an assertion that is not a conjunction. -/
theorem cmp_assertion (hp : 2 < p) (henv : EnvOk Γ env L ρ) {e : BExpr (ZMod p)} (h : OkB Γ e)
    (err : RuntimeError) (ht : evalB env e = .ok true) :
    Cmp sem ρ L pre (Flt.assertion e err : FlatM p Z _) (fun _ => True) := by
  have naive : Cmp sem ρ L pre (Flt.naiveAssertion e err : FlatM p Z _) (fun _ => True) :=
    Cmp.naiveAssertion (cmpB_of_ok hp henv h) err ht
  cases e with
  | fieldLt l r =>
    rw [OkB] at h
    rw [evalB] at ht
    obtain ⟨a, b, ha, hb, hv⟩ := Cmp.exc_bind2 ht
    split at hv
    · rename_i hd
      exact Cmp.fieldCmpAssertion hp (cmpF_of_ok hp henv h.1) (cmpF_of_ok hp henv h.2) true err ha hb hd
        (by simpa using hv)
    · cases hv
  | fieldLe l r =>
    rw [OkB] at h
    rw [evalB] at ht
    obtain ⟨a, b, ha, hb, hv⟩ := Cmp.exc_bind2 ht
    split at hv
    · rename_i hd
      exact Cmp.fieldCmpAssertion hp (cmpF_of_ok hp henv h.1) (cmpF_of_ok hp henv h.2) false err ha hb hd
        (by simpa using hv)
    · cases hv
  | uintLt l r =>
    rw [OkB] at h
    obtain ⟨h1, h2, h3, h4, h5⟩ := h
    rw [evalB] at ht
    obtain ⟨a, b, ha, hb, hv⟩ := Cmp.exc_bind2 ht
    exact Cmp.uintCmpAssertion hp (cmpU_of_ok hp henv h1) (cmpU_of_ok hp henv h2) (sndU_of_ok hp henv h1)
      (sndU_of_ok hp henv h2) (okU_width h1).1 (okU_width h1).2 h3 h4 h5 true err ha hb (by simpa using hv)
  | uintLe l r =>
    rw [OkB] at h
    obtain ⟨h1, h2, h3, h4, h5⟩ := h
    rw [evalB] at ht
    obtain ⟨a, b, ha, hb, hv⟩ := Cmp.exc_bind2 ht
    exact Cmp.uintCmpAssertion hp (cmpU_of_ok hp henv h1) (cmpU_of_ok hp henv h2) (sndU_of_ok hp henv h1)
      (sndU_of_ok hp henv h2) (okU_width h1).1 (okU_width h1).2 h3 h4 h5 false err ha hb (by simpa using hv)
  | uintEq l r =>
    rw [OkB] at h
    obtain ⟨h1, h2, h3, h4, h5⟩ := h
    have hw := okU_width h1
    rw [evalB] at ht
    obtain ⟨a, b, ha, hb, hv⟩ := Cmp.exc_bind2 ht
    unfold Flt.assertion
    refine Cmp.bind (Cmp.twoUFields (cmpU_of_ok hp henv h1) (cmpU_of_ok hp henv h2) (sndU_of_ok hp henv h1)
      (sndU_of_ok hp henv h2) (by omega) h3 h4 h5 ha hb) fun t => Cmp.equalityAssertion _ _ _ ?_
    rintro ⟨_, _, _, h6, h7⟩
    apply ZMod.val_injective p
    rw [h6, h7]
    simpa using hv
  | fieldEq l r =>
    rw [OkB] at h
    rw [evalB] at ht
    obtain ⟨a, b, ha, hb, hv⟩ := Cmp.exc_bind2 ht
    unfold Flt.assertion
    refine Cmp.bind (cmpF_of_ok hp henv h.1 a ha _) fun x => Cmp.bind (cmpF_of_ok hp henv h.2 b hb _) fun y =>
      Cmp.equalityAssertion _ _ _ ?_
    rintro ⟨⟨_, h1, _⟩, h2, _⟩
    rw [h1, h2]
    simpa using hv
  | boolEq l r =>
    rw [OkB] at h
    rw [evalB] at ht
    obtain ⟨a, b, ha, hb, hv⟩ := Cmp.exc_bind2 ht
    unfold Flt.assertion
    refine Cmp.bind (cmpB_of_ok hp henv h.1 a ha _) fun x => Cmp.bind (cmpB_of_ok hp henv h.2 b hb _) fun y =>
      Cmp.equalityAssertion _ _ _ ?_
    rintro ⟨⟨_, h1⟩, h2⟩
    rw [h1, h2]
    have : a = b := by simpa using hv
    rw [this]
  | not e =>
    cases e with
    | uintEq l r =>
      unfold Flt.assertion
      rw [OkB, OkB] at h
      obtain ⟨h1, h2, h3, h4, h5⟩ := h
      have hw := okU_width h1
      rw [evalB] at ht
      obtain ⟨c, hc, hcv⟩ := exc_bind_ok ht
      rw [evalB] at hc
      obtain ⟨a, b, ha, hb, hv⟩ := Cmp.exc_bind2 hc
      have hab : a ≠ b := by
        cases hv
        simpa using hcv
      obtain ⟨wl, ml, il⟩ := l
      obtain ⟨wr, mr, ir⟩ := r
      simp only [UExpr.inner]
      have cl := cmpU_of_ok (sem := sem) hp henv h1
      have cr := cmpU_of_ok (sem := sem) hp henv h2
      have sl := sndU_of_ok (Z := Z) hp henv h1
      have sr := sndU_of_ok (Z := Z) hp henv h2
      split
      · rw [Sound.uField_bind]
        refine Cmp.bind (Cmp.uField cr sr (by have := (okU_width h2).2; omega) hb) fun x => Cmp.notZeroAssertion x ?_
        rintro ⟨_, _, _, _, h6⟩ h0
        have ha0 : a = 0 := by rw [evalU, evalUI] at ha; cases ha; rfl
        have := h6 h5
        rw [h0] at this
        simp at this
        omega
      · rw [Sound.uField_bind]
        refine Cmp.bind (Cmp.uField cl sl (by have := (okU_width h1).2; omega) ha) fun x => Cmp.notZeroAssertion x ?_
        rintro ⟨_, _, _, _, h6⟩ h0
        have hb0 : b = 0 := by rw [evalU, evalUI] at hb; cases hb; rfl
        have := h6 h4
        rw [h0] at this
        simp at this
        omega
      · exact naive
    | fieldEq l r =>
      unfold Flt.assertion
      rw [OkB, OkB] at h
      rw [evalB] at ht
      obtain ⟨c, hc, hcv⟩ := exc_bind_ok ht
      rw [evalB] at hc
      obtain ⟨a, b, ha, hb, hv⟩ := Cmp.exc_bind2 hc
      have hab : a ≠ b := by
        cases hv
        simpa using hcv
      refine Cmp.ite (fun hz => ?_) (fun _ => Cmp.ite (fun hz => ?_) fun _ => naive)
      · have : l = .value 0 := by
          cases l <;> simp [Flt.assertion.isZero] at hz
          rw [hz]
        subst this
        refine Cmp.bind (cmpF_of_ok hp henv h.2 b hb _) fun x => Cmp.notZeroAssertion x ?_
        rintro ⟨_, h1, _⟩ h0
        rw [evalF] at ha; cases ha
        rw [h1] at h0; exact hab h0.symm
      · have : r = .value 0 := by
          cases r <;> simp [Flt.assertion.isZero] at hz
          rw [hz]
        subst this
        refine Cmp.bind (cmpF_of_ok hp henv h.1 a ha _) fun x => Cmp.notZeroAssertion x ?_
        rintro ⟨_, h1, _⟩ h0
        rw [evalF] at hb; cases hb
        rw [h1] at h0; exact hab h0
    | _ => exact naive
  | _ => exact naive

theorem evalB_conjunct {c e : BExpr (ZMod p)} (h : Conjunct c e) (ht : evalB env e = .ok true) :
    evalB env c = .ok true := by
  induction h with
  | self => exact ht
  | left _ ih =>
    rw [evalB] at ht
    obtain ⟨a, b, ha, hb, hv⟩ := Cmp.exc_bind2 ht
    have : a = true ∧ b = true := by simpa using hv
    exact ih (by rw [ha, this.1])
  | right _ ih =>
    rw [evalB] at ht
    obtain ⟨a, b, ha, hb, hv⟩ := Cmp.exc_bind2 ht
    have : a = true ∧ b = true := by simpa using hv
    exact ih (by rw [hb, this.2])

theorem cmp_assertions (hp : 2 < p) (henv : EnvOk Γ env L ρ) (err : RuntimeError) (es : List (BExpr (ZMod p)))
    (h : ∀ e ∈ es, OkB Γ e ∧ evalB env e = .ok true) :
    Cmp sem ρ L pre (Flt.assertions err es : FlatM p Z _) (fun _ => True) := by
  induction es generalizing pre with
  | nil => exact Cmp.pure fun _ => trivial
  | cons e es ih =>
    exact Cmp.bind (cmp_assertion hp henv (h e (by simp)).1 err (h e (by simp)).2) fun _ =>
      ih fun c hc => h c (by simp [hc])

end Zok
