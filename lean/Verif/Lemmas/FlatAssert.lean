import Verif.Lemmas.FlatShape
import Verif.Lemmas.FlatSoundU

/-
Soundness of assertions.
-/

set_option linter.unusedSectionVars false
set_option linter.unusedVariables false

namespace Zok
variable {p : ℕ} {Z : Type} [Fact p.Prime]
variable {ρ : Assignment (ZMod p)} {L : ZId → Option Variable} {E pre : Prop} {Γ : Ctx} {env : ZEnv p}

open FlatExpr Fld

namespace Sound

theorem withPost {α : Type} {m : FlatM p Z α} {P Q : α → Prop} (h : Sound ρ L E pre m P) (h' : Post m Q) :
    Sound ρ L E pre m (fun a => P a ∧ Q a) := by
  intro st a st' hL hm
  obtain ⟨h1, h2, h3, h4⟩ := h st a st' hL hm
  refine ⟨h1, h2, h3, fun hp hc hs hcl => ?_⟩
  rcases h4 hp hc hs hcl with he | ⟨hc, hP⟩
  · exact Or.inl he
  · exact Or.inr ⟨hc, hP, h' _ _ _ hm⟩

/-- The field of a reduced integer expression. -/
theorem uFieldR {e : UExpr (ZMod p)} (h : SndU Z env L ρ e) (h1 : 1 ≤ e.width) (hw : e.width < requiredBits p)
    (hr : e.Reduced) :
    Sound ρ L (evalU env e = .error .divZero) True (do let u ← Flt.flattenU e; Flt.getField u : FlatM p Z _)
      (fun f => ∃ n, evalU env e = .ok n ∧ n < 2 ^ e.width ∧ (f.val ρ).val = n ∧ (∀ c, f = .value c → e.isConst = true)) := by
  refine Sound.bind_ex (P := fun n u => (evalU env e = .ok n ∧ URel ρ e.width e.emax n u ∧
    (e.Reduced → URed ρ e.width n u)) ∧ (∀ c, u.field = some (.value c) → e.isConst = true ∨ u.bits = some []))
    ((h.withPost (post_flattenU e hr)).post ?_) fun u n => ?_
  · rintro u _ ⟨⟨n, hn⟩, h⟩; exact ⟨n, hn, h⟩
  unfold Flt.getField
  obtain ⟨field, bits, ex⟩ := u
  cases field with
  | none =>
    cases bits with
    | none => exact Sound.panic
    | some bs => exact Sound.pure fun h => by obtain ⟨f, hf, _⟩ := (h.2.1.2.2 hr).field; cases hf
  | some f =>
    refine Sound.pure fun h => ?_
    obtain ⟨_, ⟨h2, h3, h4⟩, h5⟩ := h
    obtain ⟨f', hf', hv⟩ := (h4 hr).field
    cases hf'
    refine ⟨n, h2, h3.lt, hv, fun c hc => ?_⟩
    subst hc
    rcases h5 c rfl with h6 | h6
    · exact h6
    · exfalso
      simp only at h6
      obtain ⟨bl, hb, hl, _⟩ := h3.bits [] h6
      have := hb.length
      simp at this
      omega

theorem eqIdentify (e : FlatExpr (ZMod p)) : Sound ρ L E pre (Flt.identify e : FlatM p Z _)
    (fun a => a.val ρ = e.val ρ) := (linearise e).post fun _ _ h => h.1

theorem equalityProduct (err : RuntimeError) (l r z : FlatExpr (ZMod p)) :
    Sound ρ L E pre (Flt.equalityAssertion.product err l r z : FlatM p Z _)
      (fun _ => l.val ρ * r.val ρ = z.val ρ) := by
  unfold Flt.equalityAssertion.product
  refine Sound.bind (eqIdentify z) fun a => Sound.bind (eqIdentify l) fun b => Sound.bind (eqIdentify r) fun c =>
    (emit _).post ?_
  rintro _ ⟨⟨⟨_, h1⟩, h2⟩, h3⟩ h
  simp only [sat_condition, FlatExpr.val, h1, h2, h3] at h
  exact h.symm

theorem equalityAssertion (l r : FlatExpr (ZMod p)) (err : RuntimeError) :
    Sound ρ L E pre (Flt.equalityAssertion l r err : FlatM p Z _) (fun _ => l.val ρ = r.val ρ) := by
  unfold Flt.equalityAssertion
  split
  · exact (equalityProduct err _ _ _).post fun _ _ h => h
  · exact (equalityProduct err _ _ _).post fun _ _ h => h.symm
  · refine Sound.bind (eqIdentify r) fun a => Sound.bind (eqIdentify l) fun b => (emit _).post ?_
    rintro _ ⟨⟨_, h1⟩, h2⟩ h
    simp only [sat_condition, FlatExpr.val, h1, h2, mul_one] at h
    exact h.symm

theorem notZeroAssertion (x : FlatExpr (ZMod p)) :
    Sound ρ L E pre (Flt.notZeroAssertion x : FlatM p Z _) (fun _ => x.val ρ ≠ 0) := by
  unfold Flt.notZeroAssertion
  refine Sound.bind (define x) fun v => Sound.bind useSym fun inv => Sound.bind (emit _) fun _ => (emit _).post ?_
  rintro _ ⟨⟨⟨_, h1⟩, _⟩, _⟩ h h0
  simp only [sat_condition, FlatExpr.val, h1, h0, mul_zero] at h
  exact one_ne_zero h

theorem naiveAssertion {e : BExpr (ZMod p)} (he : SndB Z env L ρ e) (err : RuntimeError) :
    Sound ρ L (evalB env e = .error .divZero) True (Flt.naiveAssertion e err : FlatM p Z _)
      (fun _ => evalB env e = .ok true) := by
  unfold Flt.naiveAssertion
  refine Sound.bind he fun a => Sound.ite (fun _ => (emit _).post ?_) (fun _ => (emit _).post ?_)
  all_goals
    rintro _ ⟨_, b, hb, hv⟩ h
    simp only [sat_condition, FlatExpr.val, hv] at h
    cases b with
    | true => exact hb
    | false => simp [boolF] at h

theorem val_sub_of_le {m b : ZMod p} (h : b.val ≤ m.val) : (m - b).val = m.val - b.val := ZMod.val_sub h

/-- Comparison assertions. -/
theorem cmpAssertion (R : ℕ → ℕ → Prop) [∀ a b, Decidable (R a b)] (m : ZMod p)
    {cst : FlatExpr (ZMod p) → ZMod p → RuntimeError → FlatM p Z Unit}
    {dyn : FlatExpr (ZMod p) → FlatExpr (ZMod p) → FlatM p Z (FlatExpr (ZMod p))}
    (a b : FlatExpr (ZMod p)) (err : RuntimeError) (D : Prop)
    (hflip : ∀ x y, x ≤ m.val → y ≤ m.val → (R (m.val - y) (m.val - x) → R x y))
    (hcst : ∀ e c, Sound ρ L E (∀ x, e ≠ .value x) (cst e c err) (fun _ => R (e.val ρ).val c.val))
    (hdyn : (∀ x, a ≠ .value x) → (∀ x, b ≠ .value x) →
      Sound ρ L E pre (dyn a b) (fun e => D ∧ e.val ρ = boolF (decide (R (a.val ρ).val (b.val ρ).val)))) :
    Sound ρ L E (pre ∧ (a.val ρ).val ≤ m.val ∧ (b.val ρ).val ≤ m.val ∧ ¬ ((∃ x, a = .value x) ∧ ∃ x, b = .value x))
      (Flt.cmpAssertion m cst dyn a b err)
      (fun _ => R (a.val ρ).val (b.val ρ).val ∧ ((∃ x, a = .value x) ∨ (∃ x, b = .value x) ∨ D)) := by
  unfold Flt.cmpAssertion
  split
  · refine ((hcst a _).pre_of ?_).post ?_
    · rintro ⟨_, _, _, h⟩ x hx; exact h ⟨⟨x, hx⟩, _, rfl⟩
    · intro _ _ h; exact ⟨h, Or.inr (Or.inl ⟨_, rfl⟩)⟩
  · rename_i c _
    refine ((hcst _ _).pre_of ?_).post ?_
    · intro _ x hx; cases hx
    · rintro _ ⟨_, h1, h2, _⟩ h
      simp only [FlatExpr.val] at h h1
      rw [val_sub_of_le h1, val_sub_of_le h2] at h
      exact ⟨hflip _ _ h1 h2 h, Or.inl ⟨_, rfl⟩⟩
  · rename_i h1 h2
    refine Sound.bind ((hdyn ?_ ?_).pre_of fun h => h.1) fun e => (emit _).post ?_
    · intro x hx; exact h1 _ hx
    · intro x hx; exact h2 _ hx
    · rintro _ ⟨_, hD, hv⟩ h
      simp only [sat_condition, FlatExpr.val, hv] at h
      refine ⟨?_, Or.inr (Or.inr hD)⟩
      by_contra hn
      simp [hn, boolF] at h

theorem val_two_pow_sub_one {w : ℕ} (h : w < requiredBits p) : ((2 : ZMod p) ^ w - 1).val = 2 ^ w - 1 := by
  have h1 : 2 ^ w ≤ p := pow_le_p h
  have h2 := Nat.one_le_two_pow (n := w)
  have : ((2 : ZMod p) ^ w - 1) = ((2 ^ w - 1 : ℕ) : ZMod p) := by
    push_cast [Nat.cast_sub h2]; rfl
  rw [this, val_natCast_of_lt]
  omega

/-- `FieldLt` assertions. -/
theorem fieldLtAssertion (hp : 2 < p) {l r : FExpr (ZMod p)} (hl : SndF Z env L ρ l) (hr : SndF Z env L ρ r)
    (hn : ¬ ComparesConstants (.fieldLt l r)) (err : RuntimeError) :
    Sound ρ L (evalB env (.fieldLt l r) = .error .divZero) True (Flt.assertion (.fieldLt l r) err : FlatM p Z _)
      (fun _ => evalB env (.fieldLt l r) = .ok true) := by
  have hrb := requiredBits_ge_two (p := p)
  unfold Flt.assertion
  refine Sound.bind (hl.escape fun _ h => by rw [evalB, h]; rfl) fun a => Sound.bind (hr.escape ?_) fun b => ?_
  · rintro ⟨_, h1, _⟩ h; rw [evalB, h1, h]; rfl
  have hmax : (maxValue p).val = p - 1 := by
    have := val_max_sub (0 : ZMod p); simpa using this
  refine ((cmpAssertion (pre := True) (· < ·) (maxValue p) a b err
    ((a.val ρ).val < 2 ^ (requiredBits p - 2) ∧ (b.val ρ).val < 2 ^ (requiredBits p - 2)) ?_ ?_ ?_).pre_of ?_).post ?_
  · intro x y hx hy h
    omega
  · intro e c
    exact (enforceConstantLt hp e c err (pre := ∀ x, e ≠ .value x)).pre_of fun h => ⟨h, fun x hx => absurd hx (h x)⟩
  · intro ha hb
    refine Sound.bind (enforceSafe hp a b ha hb) fun _ => ((ltCheck hp a b _ (by omega) (pre := True)).pre_of ?_).post ?_
    · rintro ⟨_, h⟩; exact ⟨trivial, fun _ _ => h⟩
    · rintro e ⟨_, h⟩ he; exact ⟨h, he⟩
  · rintro ⟨⟨_, h1, h2⟩, h3, h4⟩
    refine ⟨trivial, ?_, ?_, ?_⟩
    · rw [hmax]; have := val_lt (a.val ρ); omega
    · rw [hmax]; have := val_lt (b.val ρ); omega
    · rintro ⟨⟨x, hx⟩, y, hy⟩; exact hn ⟨h2 x hx, h4 y hy⟩
  · rintro _ ⟨⟨_, h1, h2⟩, h3, h4⟩ ⟨hR, hD⟩
    rw [evalB, h1, h3, exc_ok, exc_ok, if_pos]
    · simp [hR]
    · unfold cmpDefined
      rcases hD with ⟨x, hx⟩ | ⟨x, hx⟩ | hD
      · left; simp [h2 x hx]
      · left; simp [h4 x hx]
      · exact Or.inr hD

/-- `FieldLe` assertions. -/
theorem fieldLeAssertion (hp : 2 < p) {l r : FExpr (ZMod p)} (hl : SndF Z env L ρ l) (hr : SndF Z env L ρ r)
    (hn : ¬ ComparesConstants (.fieldLe l r)) (err : RuntimeError) :
    Sound ρ L (evalB env (.fieldLe l r) = .error .divZero) True (Flt.assertion (.fieldLe l r) err : FlatM p Z _)
      (fun _ => evalB env (.fieldLe l r) = .ok true) := by
  have hrb := requiredBits_ge_two (p := p)
  unfold Flt.assertion
  refine Sound.bind (hl.escape fun _ h => by rw [evalB, h]; rfl) fun a => Sound.bind (hr.escape ?_) fun b => ?_
  · rintro ⟨_, h1, _⟩ h; rw [evalB, h1, h]; rfl
  have hmax : (maxValue p).val = p - 1 := by
    have := val_max_sub (0 : ZMod p); simpa using this
  refine ((cmpAssertion (pre := True) (· ≤ ·) (maxValue p) a b err
    ((a.val ρ).val < 2 ^ (requiredBits p - 2) ∧ (b.val ρ).val < 2 ^ (requiredBits p - 2)) ?_ ?_ ?_).pre_of ?_).post ?_
  · intro x y hx hy h
    omega
  · intro e c
    exact (enforceConstantLe hp e c err (pre := ∀ x, e ≠ .value x)).pre_of fun h => ⟨h, fun x hx => absurd hx (h x)⟩
  · intro ha hb
    refine Sound.bind (enforceSafe hp a b ha hb) fun _ => ((leCheck hp a b _ (by omega) (pre := True)).pre_of ?_).post ?_
    · rintro ⟨_, h⟩; exact ⟨trivial, fun _ _ => h⟩
    · rintro e ⟨_, h⟩ he; exact ⟨h, he⟩
  · rintro ⟨⟨_, h1, h2⟩, h3, h4⟩
    refine ⟨trivial, ?_, ?_, ?_⟩
    · rw [hmax]; have := val_lt (a.val ρ); omega
    · rw [hmax]; have := val_lt (b.val ρ); omega
    · rintro ⟨⟨x, hx⟩, y, hy⟩; exact hn ⟨h2 x hx, h4 y hy⟩
  · rintro _ ⟨⟨_, h1, h2⟩, h3, h4⟩ ⟨hR, hD⟩
    rw [evalB, h1, h3, exc_ok, exc_ok, if_pos]
    · simp [hR]
    · unfold cmpDefined
      rcases hD with ⟨x, hx⟩ | ⟨x, hx⟩ | hD
      · left; simp [h2 x hx]
      · left; simp [h4 x hx]
      · exact Or.inr hD

/-- The operands of assertions on integers. -/
theorem twoUFields {l r : UExpr (ZMod p)} (hl : SndU Z env L ρ l) (hr : SndU Z env L ρ r) (h1 : 1 ≤ l.width)
    (hwl : l.width < requiredBits p) (hw : l.width = r.width) (rl : l.Reduced) (rr : r.Reduced)
    (e1 : evalU env l = .error .divZero → E) (e2 : ∀ n, evalU env l = .ok n → evalU env r = .error .divZero → E) :
    Sound ρ L E True (Flt.twoUFields l r : FlatM p Z _)
      (fun t => ∃ n m, evalU env l = .ok n ∧ evalU env r = .ok m ∧ n < 2 ^ l.width ∧ m < 2 ^ l.width ∧
        (t.1.val ρ).val = n ∧ (t.2.val ρ).val = m ∧ (∀ c, t.1 = .value c → l.isConst = true) ∧
        (∀ c, t.2 = .value c → r.isConst = true)) := by
  unfold Flt.twoUFields
  rw [uField_bind]
  refine Sound.bind ((uFieldR hl h1 hwl rl).escape fun _ => e1) fun a => ?_
  rw [uField_bind]
  refine Sound.bind ((uFieldR hr (hw ▸ h1) (hw ▸ hwl) rr).escape ?_) fun b => Sound.pure ?_
  · rintro ⟨_, n, hn, _⟩ h; exact e2 n hn h
  · rintro ⟨⟨_, n, a1, a2, a3, a4⟩, m, b1, b2, b3, b4⟩
    exact ⟨n, m, a1, b1, a2, hw ▸ b2, a3, b3, a4, b4⟩

/-- `UintLt` assertions. -/
theorem uintLtAssertion (hp : 2 < p) {l r : UExpr (ZMod p)} (hl : SndU Z env L ρ l) (hr : SndU Z env L ρ r)
    (h1 : 1 ≤ l.width) (hwl : 2 * l.width + 2 ≤ requiredBits p) (hw : l.width = r.width) (rl : l.Reduced)
    (rr : r.Reduced) (hn : ¬ ComparesConstants (.uintLt l r)) (err : RuntimeError) :
    Sound ρ L (evalB env (.uintLt l r) = .error .divZero) True (Flt.assertion (.uintLt l r) err : FlatM p Z _)
      (fun _ => evalB env (.uintLt l r) = .ok true) := by
  unfold Flt.assertion
  refine Sound.bind (twoUFields hl hr h1 (by omega) hw rl rr ?_ ?_) fun t => ?_
  · intro h; rw [evalB, h]; rfl
  · intro n h' h; rw [evalB, h', h]; rfl
  obtain ⟨a, b⟩ := t
  have hmax : ((2 : ZMod p) ^ l.width - 1).val = 2 ^ l.width - 1 := val_two_pow_sub_one (by omega)
  refine ((cmpAssertion (pre := (a.val ρ).val < 2 ^ l.width ∧ (b.val ρ).val < 2 ^ l.width) (· < ·)
    ((2 : ZMod p) ^ l.width - 1) a b err True ?_ ?_ ?_).pre_of ?_).post ?_
  · intro x y hx hy h
    omega
  · intro e c
    exact (enforceConstantLt hp e c err (pre := ∀ x, e ≠ .value x)).pre_of fun h => ⟨h, fun x hx => absurd hx (h x)⟩
  · intro ha hb
    refine ((ltCheck hp a b _ (by omega) (pre := True)).pre_of ?_).post ?_
    · rintro h; exact ⟨trivial, fun _ _ => h⟩
    · rintro e h he; exact ⟨trivial, he⟩
  · rintro ⟨_, n, m, a1, b1, a2, b2, a3, b3, a4, b4⟩
    simp only at a3 b3 a4 b4
    rw [hmax]
    refine ⟨⟨by omega, by omega⟩, by omega, by omega, ?_⟩
    rintro ⟨⟨x, hx⟩, y, hy⟩; exact hn ⟨a4 x hx, b4 y hy⟩
  · rintro _ ⟨_, n, m, a1, b1, a2, b2, a3, b3, a4, b4⟩ ⟨hR, _⟩
    simp only at a3 b3
    rw [evalB, a1, b1, exc_ok, exc_ok]
    rw [a3, b3] at hR
    simp [hR]

/-- `UintLe` assertions. -/
theorem uintLeAssertion (hp : 2 < p) {l r : UExpr (ZMod p)} (hl : SndU Z env L ρ l) (hr : SndU Z env L ρ r)
    (h1 : 1 ≤ l.width) (hwl : 2 * l.width + 2 ≤ requiredBits p) (hw : l.width = r.width) (rl : l.Reduced)
    (rr : r.Reduced) (hn : ¬ ComparesConstants (.uintLe l r)) (err : RuntimeError) :
    Sound ρ L (evalB env (.uintLe l r) = .error .divZero) True (Flt.assertion (.uintLe l r) err : FlatM p Z _)
      (fun _ => evalB env (.uintLe l r) = .ok true) := by
  unfold Flt.assertion
  refine Sound.bind (twoUFields hl hr h1 (by omega) hw rl rr ?_ ?_) fun t => ?_
  · intro h; rw [evalB, h]; rfl
  · intro n h' h; rw [evalB, h', h]; rfl
  obtain ⟨a, b⟩ := t
  have hmax : ((2 : ZMod p) ^ l.width - 1).val = 2 ^ l.width - 1 := val_two_pow_sub_one (by omega)
  refine ((cmpAssertion (pre := (a.val ρ).val < 2 ^ l.width ∧ (b.val ρ).val < 2 ^ l.width) (· ≤ ·)
    ((2 : ZMod p) ^ l.width - 1) a b err True ?_ ?_ ?_).pre_of ?_).post ?_
  · intro x y hx hy h
    omega
  · intro e c
    exact (enforceConstantLe hp e c err (pre := ∀ x, e ≠ .value x)).pre_of fun h => ⟨h, fun x hx => absurd hx (h x)⟩
  · intro ha hb
    refine ((leCheck hp a b _ (by omega) (pre := True)).pre_of ?_).post ?_
    · rintro h; exact ⟨trivial, fun _ _ => h⟩
    · rintro e h he; exact ⟨trivial, he⟩
  · rintro ⟨_, n, m, a1, b1, a2, b2, a3, b3, a4, b4⟩
    simp only at a3 b3 a4 b4
    rw [hmax]
    refine ⟨⟨by omega, by omega⟩, by omega, by omega, ?_⟩
    rintro ⟨⟨x, hx⟩, y, hy⟩; exact hn ⟨a4 x hx, b4 y hy⟩
  · rintro _ ⟨_, n, m, a1, b1, a2, b2, a3, b3, a4, b4⟩ ⟨hR, _⟩
    simp only at a3 b3
    rw [evalB, a1, b1, exc_ok, exc_ok]
    rw [a3, b3] at hR
    simp [hR]

end Sound

theorem okU_width {Γ : Ctx} {e : UExpr (ZMod p)} (h : OkU Γ e) : 1 ≤ e.width ∧ 2 * e.width + 2 ≤ requiredBits p := by
  obtain ⟨w, m, i⟩ := e
  rw [OkU] at h
  exact ⟨h.2.1, h.2.2.1⟩

/-- Soundness of an assertion that is not a conjunction. -/
theorem sound_assertion (hp : 2 < p) (henv : EnvOk Γ env L ρ) {e : BExpr (ZMod p)} (h : OkB Γ e)
    (hn : ¬ ComparesConstants e) (err : RuntimeError) :
    Sound ρ L (evalB env e = .error .divZero) True (Flt.assertion e err : FlatM p Z _)
      (fun _ => evalB env e = .ok true) := by
  have naive : Sound ρ L (evalB env e = .error .divZero) True (Flt.naiveAssertion e err : FlatM p Z _)
      (fun _ => evalB env e = .ok true) := Sound.naiveAssertion (sndB_of_ok hp henv h) err
  cases e with
  | fieldLt l r =>
    rw [OkB] at h
    exact Sound.fieldLtAssertion hp (sndF_of_ok hp henv h.1) (sndF_of_ok hp henv h.2) hn err
  | fieldLe l r =>
    rw [OkB] at h
    exact Sound.fieldLeAssertion hp (sndF_of_ok hp henv h.1) (sndF_of_ok hp henv h.2) hn err
  | uintLt l r =>
    rw [OkB] at h
    obtain ⟨h1, h2, h3, h4, h5⟩ := h
    exact Sound.uintLtAssertion hp (sndU_of_ok hp henv h1) (sndU_of_ok hp henv h2) (okU_width h1).1 (okU_width h1).2 h3
      h4 h5 hn err
  | uintLe l r =>
    rw [OkB] at h
    obtain ⟨h1, h2, h3, h4, h5⟩ := h
    exact Sound.uintLeAssertion hp (sndU_of_ok hp henv h1) (sndU_of_ok hp henv h2) (okU_width h1).1 (okU_width h1).2 h3
      h4 h5 hn err
  | uintEq l r =>
    rw [OkB] at h
    obtain ⟨h1, h2, h3, h4, h5⟩ := h
    have hw := okU_width h1
    unfold Flt.assertion
    refine Sound.bind (Sound.twoUFields (sndU_of_ok hp henv h1) (sndU_of_ok hp henv h2) hw.1 (by omega) h3 h4 h5 ?_ ?_)
      fun t => (Sound.equalityAssertion _ _ _).post ?_
    · intro h; rw [evalB, h]; rfl
    · intro n h' h; rw [evalB, h', h]; rfl
    · rintro _ ⟨_, n, m, a1, b1, _, _, a3, b3, _⟩ hv
      rw [evalB, a1, b1, exc_ok, exc_ok, ← a3, ← b3, hv]; simp
  | fieldEq l r =>
    rw [OkB] at h
    unfold Flt.assertion
    refine Sound.bind ((sndF_of_ok hp henv h.1).escape fun _ h => by rw [evalB, h]; rfl) fun a =>
      Sound.bind ((sndF_of_ok hp henv h.2).escape ?_) fun b => (Sound.equalityAssertion _ _ _).post ?_
    · rintro ⟨_, h1, _⟩ h; rw [evalB, h1, h]; rfl
    · rintro _ ⟨⟨_, h1, _⟩, h2, _⟩ hv
      rw [evalB, h1, h2, exc_ok, exc_ok, hv]; simp
  | boolEq l r =>
    rw [OkB] at h
    unfold Flt.assertion
    refine Sound.bind ((sndB_of_ok hp henv h.1).escape fun _ h => by rw [evalB, h]; rfl) fun a =>
      Sound.bind ((sndB_of_ok hp henv h.2).escape ?_) fun b => (Sound.equalityAssertion _ _ _).post ?_
    · rintro ⟨_, b, h1, _⟩ h; rw [evalB, h1, h]; rfl
    · rintro _ ⟨⟨_, x, h1, hx⟩, y, h2, hy⟩ hv
      rw [evalB, h1, h2, exc_ok, exc_ok]
      rw [hx, hy] at hv
      rw [boolF_inj hv]; simp
  | not e =>
    cases e with
    | uintEq l r =>
      unfold Flt.assertion
      rw [OkB, OkB] at h
      obtain ⟨h1, h2, h3, h4, h5⟩ := h
      have hw := okU_width h1
      obtain ⟨wl, ml, il⟩ := l
      obtain ⟨wr, mr, ir⟩ := r
      simp only [UExpr.inner]
      have sl := sndU_of_ok (Z := Z) hp henv h1
      have sr := sndU_of_ok (Z := Z) hp henv h2
      split
      · rw [Sound.uField_bind]
        refine Sound.bind ((Sound.uFieldR sr (okU_width h2).1 (by
          have := (okU_width h2).2; omega) h5).escape ?_) fun x => (Sound.notZeroAssertion x).post ?_
        · intro _ hh
          rw [evalB, evalB, evalU, evalUI, exc_ok, hh]; rfl
        · rintro _ ⟨_, n, hn', _, hv, _⟩ h0
          rw [evalB, evalB, evalU, evalUI, exc_ok, hn', exc_ok]
          have : n ≠ 0 := by
            rintro rfl
            exact h0 ((ZMod.val_eq_zero _).1 hv)
          simp [exc_ok, this.symm]
      · rw [Sound.uField_bind]
        refine Sound.bind ((Sound.uFieldR sl hw.1 (by
          have := (okU_width h1).2; omega) h4).escape ?_) fun x => (Sound.notZeroAssertion x).post ?_
        · intro _ hh
          rw [evalB, evalB, hh]; rfl
        · rintro _ ⟨_, n, hn', _, hv, _⟩ h0
          have : n ≠ 0 := by
            rintro rfl
            exact h0 ((ZMod.val_eq_zero _).1 hv)
          have hz : evalU env (UExpr.mk wr mr (.value 0)) = .ok 0 := by rw [evalU, evalUI]
          rw [evalB, evalB, hn', exc_ok, hz, exc_ok]
          simp [exc_ok, this]
      · exact naive
    | fieldEq l r =>
      unfold Flt.assertion
      rw [OkB, OkB] at h
      refine Sound.ite (fun hz => ?_) (fun _ => Sound.ite (fun hz => ?_) fun _ => naive)
      · have : l = .value 0 := by
          cases l <;> simp [Flt.assertion.isZero] at hz
          rw [hz]
        subst this
        refine Sound.bind ((sndF_of_ok hp henv h.2).escape ?_) fun x => (Sound.notZeroAssertion x).post ?_
        · intro _ hh; rw [evalB, evalB, evalF, exc_ok, hh]; rfl
        · rintro _ ⟨_, hx, _⟩ h0
          rw [evalB, evalB, evalF, exc_ok, hx, exc_ok]
          simp [exc_ok, Ne.symm h0]
      · have : r = .value 0 := by
          cases r <;> simp [Flt.assertion.isZero] at hz
          rw [hz]
        subst this
        have hz : evalF env (FExpr.value (0 : ZMod p)) = .ok 0 := by rw [evalF]
        refine Sound.bind ((sndF_of_ok hp henv h.1).escape ?_) fun x => (Sound.notZeroAssertion x).post ?_
        · intro _ hh; rw [evalB, evalB, hh]; rfl
        · rintro _ ⟨_, hx, _⟩ h0
          rw [evalB, evalB, hx, exc_ok, hz, exc_ok]
          simp [exc_ok, h0]
    | _ => exact naive
  | _ => exact naive

theorem mem_conjuncts {c e : BExpr (ZMod p)} (h : c ∈ Flt.conjuncts e) : Conjunct c e := by
  fun_induction Flt.conjuncts e with
  | case1 l r ih1 ih2 =>
    rcases List.mem_append.1 h with h | h
    · exact .right (ih1 h)
    · exact .left (ih2 h)
  | case2 e =>
    simp at h; subst h; exact .self _

theorem okB_conjuncts {Γ : Ctx} {c e : BExpr (ZMod p)} (h : Conjunct c e) (hk : OkB Γ e) : OkB Γ c := by
  induction h with
  | self => exact hk
  | left _ ih => rw [OkB] at hk; exact ih hk.1
  | right _ ih => rw [OkB] at hk; exact ih hk.2

theorem evalB_conjuncts {e : BExpr (ZMod p)} (h : ∀ c ∈ Flt.conjuncts e, evalB env c = .ok true) :
    evalB env e = .ok true := by
  fun_induction Flt.conjuncts e with
  | case1 l r ih1 ih2 =>
    rw [evalB, ih2 fun c hc => h c (by simp [hc]), ih1 fun c hc => h c (by simp [hc])]; rfl
  | case2 e => exact h e (by simp)

theorem sound_assertions (hp : 2 < p) (henv : EnvOk Γ env L ρ) (err : RuntimeError) (es : List (BExpr (ZMod p)))
    (h : ∀ e ∈ es, OkB Γ e ∧ ¬ ComparesConstants e) :
    Sound ρ L (∃ c ∈ es, evalB env c = .error .divZero) True (Flt.assertions err es : FlatM p Z _)
      (fun _ => ∀ c ∈ es, evalB env c = .ok true) := by
  induction es with
  | nil => exact Sound.pure fun _ => by simp
  | cons e es ih =>
    refine Sound.bind ((sound_assertion hp henv (h e (by simp)).1 (h e (by simp)).2 err).escape fun _ he =>
      ⟨e, by simp, he⟩) fun _ => ((ih fun c hc => h c (by simp [hc])).escape ?_).post ?_
    · rintro _ ⟨c, hc, he⟩; exact ⟨c, by simp [hc], he⟩
    · rintro _ ⟨_, h1⟩ h2 c hc
      rcases List.mem_cons.1 hc with rfl | hc
      · exact h1
      · exact h2 c hc

end Zok
