import Verif.Lemmas.FlatSel

/-
Soundness of the flattening of expressions.
-/

set_option linter.unusedSectionVars false
set_option linter.unusedVariables false

namespace Zok
variable {p : ℕ} {Z : Type} [Fact p.Prime]
variable {ρ : Assignment (ZMod p)} {L : ZId → Option Variable} {E pre : Prop} {Γ : Ctx} {env : ZEnv p}

open FlatExpr Fld

/-- Soundness of the flattening of a field expression. -/
def SndF (Z : Type) (env : ZEnv p) (L : ZId → Option Variable) (ρ : Assignment (ZMod p)) (e : FExpr (ZMod p)) : Prop :=
  Sound ρ L (evalF env e = .error .divZero) True (Flt.flattenF e : FlatM p Z _)
    (fun a => evalF env e = .ok (a.val ρ) ∧ ∀ c, a = .value c → e.isConst = true)

/-- Soundness of the flattening of a boolean expression. -/
def SndB (Z : Type) (env : ZEnv p) (L : ZId → Option Variable) (ρ : Assignment (ZMod p)) (e : BExpr (ZMod p)) : Prop :=
  Sound ρ L (evalB env e = .error .divZero) True (Flt.flattenB e : FlatM p Z _)
    (fun a => ∃ b, evalB env e = .ok b ∧ a.val ρ = boolF b)

/-- Soundness of the flattening of an unsigned integer expression. -/
def SndU (Z : Type) (env : ZEnv p) (L : ZId → Option Variable) (ρ : Assignment (ZMod p)) (e : UExpr (ZMod p)) : Prop :=
  Sound ρ L (evalU env e = .error .divZero) True (Flt.flattenU e : FlatM p Z _)
    (fun u => ∃ n, evalU env e = .ok n ∧ URel ρ e.width e.emax n u ∧ (e.Reduced → URed ρ e.width n u))

/-- Soundness of the flattening of an unsigned integer expression before reduction. -/
def SndUI (Z : Type) (env : ZEnv p) (L : ZId → Option Variable) (ρ : Assignment (ZMod p)) (w mx : ℕ)
    (i : UInner (ZMod p)) : Prop :=
  Sound ρ L (evalUI env w i = .error .divZero) True (Flt.flattenUI w i : FlatM p Z _)
    (fun u => ∃ n, evalUI env w i = .ok n ∧ URel ρ w mx n u)

namespace Sound

/-! ### Fields of integers -/

theorem getField_red (w n : ℕ) (u : FlatU p) : Sound ρ L E (pre ∧ URed ρ w n u) (Flt.getField u : FlatM p Z _)
    (fun f => (f.val ρ).val = n) := by
  unfold Flt.getField
  obtain ⟨field, bits, ex⟩ := u
  cases field with
  | none =>
    cases bits with
    | none => exact Sound.panic
    | some bs => exact Sound.pure fun h => by obtain ⟨f, hf, _⟩ := h.2.field; cases hf
  | some f => exact Sound.pure fun h => by obtain ⟨f', hf, h'⟩ := h.2.field; cases hf; exact h'

theorem assertReduced (m : Option (UMeta (ZMod p))) : Sound ρ L E pre (Flt.assertReduced m : FlatM p Z _)
    (fun _ => True) := by
  unfold Flt.assertReduced Flt.readInfo
  refine Sound.bind (P := fun _ => True) (Sound.bind (unwrap _) fun m' => Sound.bind (unwrap _) fun b =>
    Sound.pure fun _ => trivial) fun t => (assert _).post fun _ _ _ => trivial

/-- The field of an integer expression. -/
theorem uField {e : UExpr (ZMod p)} (h : SndU Z env L ρ e) (hw : e.width < requiredBits p) :
    Sound ρ L (evalU env e = .error .divZero) True (do let u ← Flt.flattenU e; Flt.getField u : FlatM p Z _)
      (fun f => ∃ n, evalU env e = .ok n ∧ n < 2 ^ e.width ∧ (f.val ρ).val % 2 ^ e.width = n ∧
        (f.val ρ).val ≤ e.emax ∧ (e.Reduced → (f.val ρ).val = n)) := by
  refine Sound.bind_ex h fun u n => ?_
  refine ((getField e.width e.emax n u hw (pre := True)).pre_of fun h => ⟨trivial, h.2.2.1⟩).post ?_
  rintro f ⟨_, h1, h2, h3⟩ ⟨h4, h5, h6⟩
  refine ⟨n, h1, h2.lt, h4, h5, fun hr => ?_⟩
  rcases h6 with h6 | h6
  · obtain ⟨f', hf', hv⟩ := (h3 hr).field
    rw [h6] at hf'
    cases hf'; exact hv
  · exact h6

theorem uField_bind {e : UExpr (ZMod p)} {β : Type} {k : FlatExpr (ZMod p) → FlatM p Z β} :
    (Flt.flattenU e >>= fun u => Flt.getField u >>= k) = ((do let u ← Flt.flattenU e; Flt.getField u) >>= k) := by
  rw [bind_assoc]

/-- `UintEq` on reduced operands. -/
theorem uintEq {l r : UExpr (ZMod p)} (hl : SndU Z env L ρ l) (hr : SndU Z env L ρ r) (hwl : l.width < requiredBits p)
    (hw : l.width = r.width) (rl : l.Reduced) (rr : r.Reduced) :
    Sound ρ L ((do let a ← evalU env l; let b ← evalU env r; .ok (decide (a = b))) = .error .divZero) True
      (Flt.uintEqCheck l.info (Flt.flattenU l) r.info (Flt.flattenU r) : FlatM p Z _)
      (fun e => ∃ a b, evalU env l = .ok a ∧ evalU env r = .ok b ∧ e.val ρ = boolF (decide (a = b))) := by
  unfold Flt.uintEqCheck
  refine Sound.bind (assertReduced _) fun _ => Sound.bind (assertReduced _) fun _ => ?_
  rw [uField_bind]
  refine Sound.bind ((uField hl hwl).escape ?_) fun a => ?_
  · intro _ h; rw [h]; rfl
  rw [uField_bind]
  refine Sound.bind ((uField hr (hw ▸ hwl)).escape ?_) fun b => (eqCheck a b).post ?_
  · rintro ⟨_, n, hn, _⟩ h; rw [hn, h]; rfl
  · rintro e ⟨⟨_, n, hn, _, _, _, hnr⟩, m, hm, _, _, _, hmr⟩ he
    refine ⟨n, m, hn, hm, ?_⟩
    rw [he, ← hnr rl, ← hmr rr]
    congr 1
    rw [decide_eq_decide]
    exact (ZMod.val_injective p).eq_iff.symm

/-- `UintLt` on reduced operands. -/
theorem uintLt (hp : 2 < p) {l r : UExpr (ZMod p)} (hl : SndU Z env L ρ l) (hr : SndU Z env L ρ r)
    (hwl : 2 * l.width + 2 ≤ requiredBits p)
    (h1w : 1 ≤ l.width) (hw : l.width = r.width) (rl : l.Reduced) (rr : r.Reduced) :
    Sound ρ L ((do let a ← evalU env l; let b ← evalU env r; .ok (decide (a < b))) = .error .divZero) True
      (Flt.uintLtCheck l.width l.info (Flt.flattenU l) r.info (Flt.flattenU r) : FlatM p Z _)
      (fun e => ∃ a b, evalU env l = .ok a ∧ evalU env r = .ok b ∧ e.val ρ = boolF (decide (a < b))) := by
  unfold Flt.uintLtCheck
  refine Sound.bind (assertReduced _) fun _ => Sound.bind (assertReduced _) fun _ => ?_
  rw [uField_bind]
  refine Sound.bind ((uField hl (by omega)).escape ?_) fun a => ?_
  · intro _ h; rw [h]; rfl
  rw [uField_bind]
  refine Sound.bind ((uField hr (by omega)).escape ?_) fun b =>
    ((ltCheck hp a b l.width (by omega) (pre := True)).pre_of ?_).post ?_
  · rintro ⟨_, n, hn, _⟩ h; rw [hn, h]; rfl
  · rintro ⟨⟨_, n, hn, hlt, _, _, hnr⟩, m, hm, hlt', _, _, hmr⟩
    refine ⟨trivial, fun _ _ => ?_⟩
    rw [hnr rl, hmr rr]
    exact ⟨hlt, hw ▸ hlt'⟩
  · rintro e ⟨⟨_, n, hn, _, _, _, hnr⟩, m, hm, _, _, _, hmr⟩ he
    refine ⟨n, m, hn, hm, ?_⟩
    rw [he, hnr rl, hmr rr]

/-- The condition of a selection. -/
theorem selCond (hp : 2 < p) {idx : UExpr (ZMod p)} (h : SndU Z env L ρ idx) (hw : idx.width = 32)
    (hrb : 66 ≤ requiredBits p) (hr : idx.Reduced) (j : ℕ) (hj : j < 2 ^ 32) :
    Sound ρ L (evalU env idx = .error .divZero) True (Flt.selCond idx.info (Flt.flattenU idx) j : FlatM p Z _)
      (fun k => ∃ n, evalU env idx = .ok n ∧ k.val ρ = boolF (decide (j = n))) := by
  have hp32 : 2 ^ 32 ≤ p := pow_le_p (by omega)
  have hjv : ((j : ℕ) : ZMod p).val = j := val_natCast_of_lt (by omega)
  unfold Flt.selCond Flt.uintEqCheck
  refine Sound.bind (assertReduced _) fun _ => Sound.bind (assertReduced _) fun _ => ?_
  refine Sound.bind ((uTail hp 32 j (j : ZMod p) true (Flt.withField (.value (j : ZMod p))) ?_ (by omega)
    (pre := True)).pre_of fun _ => ⟨trivial, ?_⟩) fun u => ?_
  · rw [hjv]
    exact lt_of_lt_of_le hj (Nat.pow_le_pow_right (by norm_num) (by omega))
  · refine ⟨hj, ?_, ?_, ?_, ?_⟩
    · intro f hf; cases hf
      simp only [FlatExpr.val, hjv]
      exact ⟨Nat.mod_eq_of_lt hj, le_rfl⟩
    · intro bs hbs; cases hbs
    · intro h; cases h
    · intro _ f _ hb; exact absurd rfl hb
  refine Sound.bind ((getField_red 32 j u (pre := True)).pre_of fun h => ⟨trivial, h.2.2 rfl⟩) fun a => ?_
  rw [uField_bind]
  refine Sound.bind ((uField h (by omega)).escape fun _ h => h) fun b => (eqCheck a b).post ?_
  rintro e ⟨⟨_, ha⟩, n, hn, hlt, _, _, hv⟩ he
  refine ⟨n, hn, ?_⟩
  rw [he]
  congr 1
  rw [decide_eq_decide, ← (ZMod.val_injective p).eq_iff, ha, hv hr]

/-- The operands of an arithmetic operation on integers. -/
theorem twoFields {l r : UExpr (ZMod p)} (hl : SndU Z env L ρ l) (hr : SndU Z env L ρ r)
    (hwl : l.width < requiredBits p) (hwr : r.width < requiredBits p)
    (h1 : evalU env l = .error .divZero → E) (h2 : ∀ n, evalU env l = .ok n → evalU env r = .error .divZero → E) :
    Sound ρ L E True (Flt.twoFields (Flt.flattenU l) (Flt.flattenU r) : FlatM p Z _)
      (fun t => ∃ n m, evalU env l = .ok n ∧ evalU env r = .ok m ∧ n < 2 ^ l.width ∧ m < 2 ^ r.width ∧
        (t.1.val ρ).val % 2 ^ l.width = n ∧ (t.1.val ρ).val ≤ l.emax ∧
        (t.2.val ρ).val % 2 ^ r.width = m ∧ (t.2.val ρ).val ≤ r.emax) := by
  unfold Flt.twoFields
  rw [uField_bind]
  refine Sound.bind ((uField hl hwl).escape fun _ => h1) fun a => ?_
  rw [uField_bind]
  refine Sound.bind ((uField hr hwr).escape ?_) fun b => Sound.bind (linearise a) fun a' =>
    Sound.bind (linearise b) fun b' => Sound.pure ?_
  · rintro ⟨_, n, hn, _⟩ h; exact h2 n hn h
  · rintro ⟨⟨⟨⟨_, n, hn, n1, n2, n3, _⟩, m, hm, m1, m2, m3, _⟩, ha, _⟩, hb, _⟩
    simp only [ha, hb]
    exact ⟨n, m, hn, hm, n1, m1, n2, n3, m2, m3⟩

/-- The operands of an arithmetic operation on field elements. -/
theorem twoLinear {l r : FExpr (ZMod p)} (hl : SndF Z env L ρ l) (hr : SndF Z env L ρ r)
    (h1 : evalF env l = .error .divZero → E) (h2 : ∀ n, evalF env l = .ok n → evalF env r = .error .divZero → E) :
    Sound ρ L E True (Flt.twoLinear (Flt.flattenF l) (Flt.flattenF r) : FlatM p Z _)
      (fun t => evalF env l = .ok (t.1.val ρ) ∧ evalF env r = .ok (t.2.val ρ)) := by
  unfold Flt.twoLinear
  refine Sound.bind (hl.escape fun _ => h1) fun a => Sound.bind (hr.escape ?_) fun b =>
    Sound.bind (linearise a) fun a' => Sound.bind (linearise b) fun b' => Sound.pure ?_
  · rintro ⟨_, hn, _⟩ h; exact h2 _ hn h
  · rintro ⟨⟨⟨⟨_, ha, _⟩, hb, _⟩, ha', _⟩, hb', _⟩
    rw [ha', hb']; exact ⟨ha, hb⟩

end Sound

/-! ### Field expressions -/

theorem sndF_value (n : ZMod p) : SndF Z env L ρ (.value n) := by
  unfold SndF; rw [Flt.flattenF]
  exact Sound.pure fun _ => ⟨by rw [evalF]; rfl, fun _ _ => rfl⟩

theorem sndF_ident (henv : EnvOk Γ env L ρ) {x : ZId} (h : Γ x = some .field) : SndF Z env L ρ (.ident x) := by
  unfold SndF; rw [Flt.flattenF]
  refine Sound.bind (Sound.lookup x) fun v => Sound.pure ?_
  rintro ⟨_, hv⟩
  obtain ⟨y, hy, hok⟩ := henv x _ h
  rw [hv] at hy; cases hy
  refine ⟨?_, fun c h => by cases h⟩
  rw [evalF, (show env x = some (.field (ρ v)) from hok)]
  rfl

theorem sndF_add {l r : FExpr (ZMod p)} (hl : SndF Z env L ρ l) (hr : SndF Z env L ρ r) :
    SndF Z env L ρ (.add l r) := by
  unfold SndF; rw [Flt.flattenF]
  refine Sound.bind (Sound.twoLinear hl hr (fun h => by rw [evalF, h]; rfl) fun n h h' => by rw [evalF, h, h']; rfl)
    fun t => Sound.pure ?_
  rintro ⟨_, h1, h2⟩
  exact ⟨by rw [evalF, h1, h2]; rfl, fun c h => by cases h⟩

theorem sndF_sub {l r : FExpr (ZMod p)} (hl : SndF Z env L ρ l) (hr : SndF Z env L ρ r) :
    SndF Z env L ρ (.sub l r) := by
  unfold SndF; rw [Flt.flattenF]
  refine Sound.bind (Sound.twoLinear hl hr (fun h => by rw [evalF, h]; rfl) fun n h h' => by rw [evalF, h, h']; rfl)
    fun t => Sound.pure ?_
  rintro ⟨_, h1, h2⟩
  exact ⟨by rw [evalF, h1, h2]; rfl, fun c h => by cases h⟩

theorem sndF_mult {l r : FExpr (ZMod p)} (hl : SndF Z env L ρ l) (hr : SndF Z env L ρ r) :
    SndF Z env L ρ (.mult l r) := by
  unfold SndF; rw [Flt.flattenF]
  refine Sound.bind (Sound.twoLinear hl hr (fun h => by rw [evalF, h]; rfl) fun n h h' => by rw [evalF, h, h']; rfl)
    fun t => Sound.pure ?_
  rintro ⟨_, h1, h2⟩
  exact ⟨by rw [evalF, h1, h2]; rfl, fun c h => by cases h⟩

/-- Turn a proof by cases on a fact about the run into an escape. -/
theorem Sound.esc_of {α : Type} {m : FlatM p Z α} {P Q : α → Prop} (h : Sound ρ L E pre m Q)
    (hP : ∀ a, pre → Q a → E ∨ P a) : Sound ρ L E pre m P := by
  intro st a st' hL hm
  obtain ⟨h1, h2, h3, h4⟩ := h st a st' hL hm
  refine ⟨h1, h2, h3, fun hp hc hs hcl => ?_⟩
  rcases h4 hp hc hs hcl with he | ⟨hc', hQ⟩
  · exact Or.inl he
  · rcases hP a hp hQ with he | hP
    · exact Or.inl he
    · exact Or.inr ⟨hc', hP⟩

theorem sndF_div {l r : FExpr (ZMod p)} (hl : SndF Z env L ρ l) (hr : SndF Z env L ρ r) :
    SndF Z env L ρ (.div l r) := by
  unfold SndF; rw [Flt.flattenF]
  refine Sound.bind (hl.escape fun _ h => by rw [evalF, h]; rfl) fun a => Sound.bind (hr.escape ?_) fun b =>
    (Sound.divFlat a b).esc_of ?_
  · rintro ⟨_, h, _⟩ h'; rw [evalF, h, h']; rfl
  · rintro e ⟨⟨_, h1, _⟩, h2, _⟩ ⟨h3, h4⟩
    by_cases hb : b.val ρ = 0
    · left; rw [evalF, h1, h2]; simp [exc_ok, hb]
    · right
      refine ⟨?_, fun c h => absurd h (h4 c)⟩
      rw [evalF, h1, h2]
      simp only [exc_ok, hb, if_false]
      rw [h3, mul_div_cancel_left₀ _ hb]

theorem sndF_pow {b : FExpr (ZMod p)} (hb : SndF Z env L ρ b) {w : ℕ} {m : Option (UMeta (ZMod p))} {n : ℕ}
    (hn : n < 2 ^ 128) : SndF Z env L ρ (.pow b (.mk w m (.value n))) := by
  unfold SndF; rw [Flt.flattenF]
  simp only [UExpr.inner]
  refine Sound.bind (hb.escape fun _ h => by rw [evalF, h]; rfl) fun a => (Sound.powFlat a n hn).post ?_
  rintro e ⟨_, h1, _⟩ ⟨h2, h3⟩
  refine ⟨?_, fun c h => ?_⟩
  · rw [evalF, h1]
    simp only [exc_ok, evalU, evalUI]
    rw [h2]
  · have := h3 c h
    subst this; rfl

theorem Sound.getField_with {u : FlatU p} {P : FlatExpr (ZMod p) → Prop}
    (h : pre → ∃ g, u = Flt.withField g ∧ P g) : Sound ρ L E pre (Flt.getField u : FlatM p Z _) P := by
  unfold Flt.getField
  obtain ⟨field, bits, ex⟩ := u
  cases field with
  | some f =>
    refine Sound.pure fun hp => ?_
    obtain ⟨g, hg, hP⟩ := h hp
    cases hg; exact hP
  | none =>
    cases bits with
    | none => exact Sound.panic
    | some bs =>
      refine Sound.pure fun hp => ?_
      obtain ⟨g, hg, hP⟩ := h hp
      cases hg

theorem sndF_cond {c : BExpr (ZMod p)} {t e : FExpr (ZMod p)} (hc : SndB Z env L ρ c) (ht : SndF Z env L ρ t)
    (he : SndF Z env L ρ e) : SndF Z env L ρ (.cond c t e) := by
  unfold SndF; rw [Flt.flattenF]
  refine Sound.bind (Sound.conditional (hc.escape fun _ h => by rw [evalF, h]; rfl)
    (fun x => ht.escape ?_) (fun x y => he.escape ?_)) fun u => Sound.getField_with ?_
  · rintro ⟨_, b, hb, _⟩ h; rw [evalF, hb, h]; rfl
  · rintro ⟨⟨_, b, hb, _⟩, h1, _⟩ h; rw [evalF, hb, h1, h]; rfl
  · rintro ⟨_, v, x, y, z, rfl, ⟨b, hb, hx⟩, ⟨hy, _⟩, ⟨hz, _⟩, hv⟩
    refine ⟨_, rfl, ?_, fun c h => by cases h⟩
    rw [evalF, hb, hy, hz]
    simp only [exc_ok, FlatExpr.val, hv, hx]
    cases b <;> simp [boolF]

theorem sndF_select (hp : 2 < p) {es : List (FExpr (ZMod p))} {i : UExpr (ZMod p)} (hes : ∀ e ∈ es, SndF Z env L ρ e)
    (hi : SndU Z env L ρ i) (hw : i.width = 32) (hrb : 66 ≤ requiredBits p) (hr : i.Reduced) (hl : es.length ≤ 2 ^ 32) :
    SndF Z env L ρ (.select es i) := by
  unfold SndF; rw [Flt.flattenF]
  simp only [flattenSelF_eq]
  rw [← bind_assoc]
  refine Sound.bind ((Sound.select Flt.flattenF (evalF env) (fun a v => a.val ρ = v)
    (Flt.selCond i.info (Flt.flattenU i)) (evalU env i) (fun a b v h h' => h ▸ h') es
    (fun e he => (hes e he).post fun a _ h => ⟨_, h.1, rfl⟩) (Sound.selCond hp hi hw hrb hr) hl).esc ?_) fun u =>
    Sound.getField_with ?_
  · intro _ h
    rw [evalF]; simp only [evalFs_eq]; exact h
  · rintro ⟨_, g, rfl, hg, v, hv, hgv⟩
    refine ⟨g, rfl, ?_, fun c h => absurd h (hg c)⟩
    rw [evalF]; simp only [evalFs_eq]; rw [hv, hgv]

/-! ### Boolean expressions -/

theorem sndB_value (b : Bool) : SndB Z env L ρ (.value b) := by
  unfold SndB; rw [Flt.flattenB]
  exact Sound.pure fun _ => ⟨b, by rw [evalB], rfl⟩

theorem sndB_ident (henv : EnvOk Γ env L ρ) {x : ZId} (h : Γ x = some .bool) : SndB Z env L ρ (.ident x) := by
  unfold SndB; rw [Flt.flattenB]
  refine Sound.bind (Sound.lookup x) fun v => Sound.pure ?_
  rintro ⟨_, hv⟩
  obtain ⟨y, hy, b, hb, hyb⟩ := henv x _ h
  rw [hv] at hy; cases hy
  exact ⟨b, by rw [evalB, hb], hyb⟩

theorem sndB_select (hp : 2 < p) {es : List (BExpr (ZMod p))} {i : UExpr (ZMod p)} (hes : ∀ e ∈ es, SndB Z env L ρ e)
    (hi : SndU Z env L ρ i) (hw : i.width = 32) (hrb : 66 ≤ requiredBits p) (hr : i.Reduced) (hl : es.length ≤ 2 ^ 32) :
    SndB Z env L ρ (.select es i) := by
  unfold SndB; rw [Flt.flattenB]
  simp only [flattenSelB_eq]
  rw [← bind_assoc]
  refine Sound.bind ((Sound.select Flt.flattenB (evalB env) (fun a v => a.val ρ = boolF v)
    (Flt.selCond i.info (Flt.flattenU i)) (evalU env i) (fun a b v h h' => h ▸ h') es
    (fun e he => hes e he) (Sound.selCond hp hi hw hrb hr) hl).esc ?_) fun u =>
    Sound.getField_with ?_
  · intro _ h
    rw [evalB]; simp only [evalBs_eq]; exact h
  · rintro ⟨_, g, rfl, hg, v, hv, hgv⟩
    refine ⟨g, rfl, v, ?_, hgv⟩
    rw [evalB]; simp only [evalBs_eq]; rw [hv]

/-- The definedness of a comparison follows from the shape of its operands. -/
theorem cmpDefined_of {l r : FExpr (ZMod p)} {a b : FlatExpr (ZMod p)}
    (hl : ∀ c, a = .value c → l.isConst = true) (hr : ∀ c, b = .value c → r.isConst = true)
    (h : (∃ c, a = .value c) ∨ (∃ c, b = .value c) ∨
      ((a.val ρ).val < 2 ^ (requiredBits p - 2) ∧ (b.val ρ).val < 2 ^ (requiredBits p - 2))) :
    cmpDefined p (l.isConst || r.isConst) (a.val ρ) (b.val ρ) := by
  rcases h with ⟨c, hc⟩ | ⟨c, hc⟩ | h
  · left; simp [hl c hc]
  · left; simp [hr c hc]
  · right; exact h

theorem sndB_fieldLt (hp : 2 < p) {l r : FExpr (ZMod p)} (hl : SndF Z env L ρ l) (hr : SndF Z env L ρ r) :
    SndB Z env L ρ (.fieldLt l r) := by
  unfold SndB; rw [Flt.flattenB]
  refine Sound.bind (hl.escape fun _ h => by rw [evalB, h]; rfl) fun a => Sound.bind (hr.escape ?_) fun b =>
    (Sound.fieldLtCheck hp a b).post ?_
  · rintro ⟨_, h, _⟩ h'; rw [evalB, h, h']; rfl
  · rintro e ⟨⟨_, h1, h1'⟩, h2, h2'⟩ ⟨h3, h4⟩
    refine ⟨_, ?_, h3⟩
    rw [evalB, h1, h2]
    simp only [exc_ok, if_pos (cmpDefined_of h1' h2' h4)]

theorem sndB_fieldLe (hp : 2 < p) {l r : FExpr (ZMod p)} (hl : SndF Z env L ρ l) (hr : SndF Z env L ρ r) :
    SndB Z env L ρ (.fieldLe l r) := by
  unfold SndB; rw [Flt.flattenB]
  refine Sound.bind (hl.escape fun _ h => by rw [evalB, h]; rfl) fun a => Sound.bind (hr.escape ?_) fun b =>
    Sound.bind (Sound.fieldLtCheck hp a b) fun lt =>
    Sound.bind (hl.escape fun _ h => by rw [evalB, h]; rfl) fun a' => Sound.bind (hr.escape ?_) fun b' =>
    Sound.bind (Sound.eqCheck a' b') fun eq => Sound.pure ?_
  · rintro ⟨_, h, _⟩ h'; rw [evalB, h, h']; rfl
  · rintro ⟨⟨⟨⟨_, h, _⟩, _⟩, _⟩, _⟩ h'; rw [evalB, h, h']; rfl
  · rintro ⟨⟨⟨⟨⟨⟨_, h1, h1'⟩, h2, h2'⟩, h3, h4⟩, h5, _⟩, h6, _⟩, h7⟩
    refine ⟨decide ((a.val ρ).val ≤ (b.val ρ).val), ?_, ?_⟩
    · rw [evalB, h1, h2]
      simp only [exc_ok, if_pos (cmpDefined_of h1' h2' h4)]
    · rw [h1] at h5; rw [h2] at h6
      injection h5 with h5; injection h6 with h6
      simp only [FlatExpr.val, h7, h3, ← h5, ← h6]
      by_cases h : a.val ρ = b.val ρ
      · simp [h, boolF]
      · have h' : (a.val ρ).val ≠ (b.val ρ).val := fun h' => h (ZMod.val_injective p h')
        by_cases h3 : (a.val ρ).val < (b.val ρ).val
        · simp [h, h3, h3.le, boolF]
        · have : ¬ (a.val ρ).val ≤ (b.val ρ).val := by omega
          simp [h, h3, this, boolF]

theorem sndB_fieldEq {l r : FExpr (ZMod p)} (hl : SndF Z env L ρ l) (hr : SndF Z env L ρ r) :
    SndB Z env L ρ (.fieldEq l r) := by
  unfold SndB; rw [Flt.flattenB]
  refine Sound.bind (hl.escape fun _ h => by rw [evalB, h]; rfl) fun a => Sound.bind (hr.escape ?_) fun b =>
    (Sound.eqCheck a b).post ?_
  · rintro ⟨_, h, _⟩ h'; rw [evalB, h, h']; rfl
  · rintro e ⟨⟨_, h1, _⟩, h2, _⟩ h3
    exact ⟨_, by rw [evalB, h1, h2]; rfl, h3⟩

theorem sndB_uintEq {l r : UExpr (ZMod p)} (hl : SndU Z env L ρ l) (hr : SndU Z env L ρ r)
    (hwl : l.width < requiredBits p) (hw : l.width = r.width) (rl : l.Reduced) (rr : r.Reduced) :
    SndB Z env L ρ (.uintEq l r) := by
  unfold SndB; rw [Flt.flattenB]
  refine ((Sound.uintEq hl hr hwl hw rl rr).esc fun _ h => by rw [evalB]; exact h).post ?_
  rintro e _ ⟨a, b, ha, hb, he⟩
  exact ⟨_, by rw [evalB, ha, hb]; rfl, he⟩

theorem sndB_uintLt (hp : 2 < p) {l r : UExpr (ZMod p)} (hl : SndU Z env L ρ l) (hr : SndU Z env L ρ r)
    (hwl : 2 * l.width + 2 ≤ requiredBits p) (h1w : 1 ≤ l.width) (hw : l.width = r.width) (rl : l.Reduced)
    (rr : r.Reduced) : SndB Z env L ρ (.uintLt l r) := by
  unfold SndB; rw [Flt.flattenB]
  refine ((Sound.uintLt hp hl hr hwl h1w hw rl rr).esc fun _ h => by rw [evalB]; exact h).post ?_
  rintro e _ ⟨a, b, ha, hb, he⟩
  exact ⟨_, by rw [evalB, ha, hb]; rfl, he⟩

theorem sndB_uintLe (hp : 2 < p) {l r : UExpr (ZMod p)} (hl : SndU Z env L ρ l) (hr : SndU Z env L ρ r)
    (hwl : 2 * l.width + 2 ≤ requiredBits p) (h1w : 1 ≤ l.width) (hw : l.width = r.width) (rl : l.Reduced)
    (rr : r.Reduced) : SndB Z env L ρ (.uintLe l r) := by
  have hE : ∀ f : ℕ → ℕ → Bool, (do let a ← evalU env l; let b ← evalU env r; .ok (f a b)) = Except.error Fault.divZero →
      evalB env (.uintLe l r) = .error .divZero := by
    intro f h
    rw [evalB]
    cases hl : evalU env l with
    | error e => rw [hl] at h; simpa [exc_err] using h
    | ok a =>
      cases hr : evalU env r with
      | error e => rw [hl, hr] at h; simpa [exc_err, exc_ok] using h
      | ok b => rw [hl, hr] at h; simp [exc_ok] at h
  unfold SndB; rw [Flt.flattenB]
  refine Sound.bind ((Sound.uintLt hp hl hr hwl h1w hw rl rr).escape fun _ h => hE _ h) fun lt =>
    Sound.bind ((Sound.uintEq hl hr (by omega) hw rl rr).escape fun _ h => hE _ h) fun eq => Sound.pure ?_
  rintro ⟨⟨_, a, b, ha, hb, h1⟩, a', b', ha', hb', h2⟩
  rw [ha] at ha'; rw [hb] at hb'
  cases ha'; cases hb'
  refine ⟨decide (a ≤ b), by rw [evalB, ha, hb]; rfl, ?_⟩
  simp only [FlatExpr.val, h1, h2]
  rcases Nat.lt_trichotomy a b with h | h | h
  · simp [h, h.le, h.ne, boolF]
  · simp [h, boolF]
  · simp [boolF, h.ne', Nat.not_lt.2 h.le, Nat.not_le.2 h]

/-- The operands of a boolean operation. -/
theorem Sound.twoB {β : Type} {l r : BExpr (ZMod p)} (hl : SndB Z env L ρ l) (hr : SndB Z env L ρ r)
    (h1 : evalB env l = .error .divZero → E) (h2 : ∀ x, evalB env l = .ok x → evalB env r = .error .divZero → E)
    {k : FlatExpr (ZMod p) → FlatExpr (ZMod p) → FlatM p Z β} {R : β → Prop}
    (hk : ∀ a b x y, Sound ρ L E ((evalB env l = .ok x ∧ evalB env r = .ok y) ∧ a.val ρ = boolF x ∧ b.val ρ = boolF y)
      (k a b) R) :
    Sound ρ L E True (do let a ← Flt.flattenB l; let b ← Flt.flattenB r; k a b) R := by
  refine Sound.bind_ex (hl.escape fun _ => h1) fun a x => Sound.bind_ex (hr.escape ?_) fun b y =>
    (hk a b x y).pre_of ?_
  · rintro ⟨_, h, _⟩ h'; exact h2 x h h'
  · rintro ⟨⟨_, h1, h2⟩, h3, h4⟩; exact ⟨⟨h1, h3⟩, h2, h4⟩

theorem sndB_boolEq {l r : BExpr (ZMod p)} (hl : SndB Z env L ρ l) (hr : SndB Z env L ρ r) :
    SndB Z env L ρ (.boolEq l r) := by
  unfold SndB; rw [Flt.flattenB]
  refine Sound.twoB hl hr (fun h => by rw [evalB, h]; rfl) (fun x h h' => by rw [evalB, h, h']; rfl) fun a b x y =>
    Sound.bind (Sound.newDef _) fun v => Sound.pure ?_
  rintro ⟨⟨⟨h1, h2⟩, h3, h4⟩, h5⟩
  refine ⟨x == y, by rw [evalB, h1, h2]; rfl, ?_⟩
  simp only [FlatExpr.val, h3, h4] at h5 ⊢
  rw [h5]
  cases x <;> cases y <;> simp [boolF]

theorem sndB_or {l r : BExpr (ZMod p)} (hl : SndB Z env L ρ l) (hr : SndB Z env L ρ r) :
    SndB Z env L ρ (.or l r) := by
  unfold SndB; rw [Flt.flattenB]
  refine Sound.twoB hl hr (fun h => by rw [evalB, h]; rfl) (fun x h h' => by rw [evalB, h, h']; rfl) fun a b x y =>
    (Sound.boolOr a b x y).post ?_
  rintro e ⟨⟨h1, h2⟩, _⟩ h
  exact ⟨_, by rw [evalB, h1, h2]; rfl, h⟩

theorem sndB_and {l r : BExpr (ZMod p)} (hl : SndB Z env L ρ l) (hr : SndB Z env L ρ r) :
    SndB Z env L ρ (.and l r) := by
  unfold SndB; rw [Flt.flattenB]
  refine Sound.twoB hl hr (fun h => by rw [evalB, h]; rfl) (fun x h h' => by rw [evalB, h, h']; rfl) fun a b x y =>
    Sound.bind Sound.useSym fun v => Sound.bind (Sound.assert _) fun _ => Sound.bind (Sound.emit _) fun _ =>
    Sound.pure ?_
  rintro ⟨⟨⟨⟨⟨h1, h2⟩, h3, h4⟩, _⟩, _⟩, h⟩
  refine ⟨x && y, by rw [evalB, h1, h2]; rfl, ?_⟩
  simp only [sat_definition, FlatExpr.val, h3, h4] at h ⊢
  rw [h]
  cases x <;> cases y <;> simp [boolF]

theorem sndB_not {e : BExpr (ZMod p)} (h : SndB Z env L ρ e) : SndB Z env L ρ (.not e) := by
  unfold SndB; rw [Flt.flattenB]
  refine Sound.bind (h.escape fun _ h => by rw [evalB, h]; rfl) fun a => Sound.pure ?_
  rintro ⟨_, b, hb, ha⟩
  refine ⟨!b, by rw [evalB, hb]; rfl, ?_⟩
  simp only [FlatExpr.val, ha]
  cases b <;> simp [boolF]

theorem sndB_cond {c t e : BExpr (ZMod p)} (hc : SndB Z env L ρ c) (ht : SndB Z env L ρ t)
    (he : SndB Z env L ρ e) : SndB Z env L ρ (.cond c t e) := by
  unfold SndB; rw [Flt.flattenB]
  refine Sound.bind (Sound.conditional (hc.escape fun _ h => by rw [evalB, h]; rfl)
    (fun x => ht.escape ?_) (fun x y => he.escape ?_)) fun u => Sound.getField_with ?_
  · rintro ⟨_, b, hb, _⟩ h; rw [evalB, hb, h]; rfl
  · rintro ⟨⟨_, b, hb, _⟩, b', h1, _⟩ h; rw [evalB, hb, h1, h]; rfl
  · rintro ⟨_, v, x, y, z, rfl, ⟨b, hb, hx⟩, ⟨by', hy, hy'⟩, ⟨bz, hz, hz'⟩, hv⟩
    refine ⟨_, rfl, if b then by' else bz, ?_, ?_⟩
    · rw [evalB, hb, hy, hz]; rfl
    · simp only [FlatExpr.val, hv, hx, hy', hz']
      cases b <;> simp [boolF]

end Zok
