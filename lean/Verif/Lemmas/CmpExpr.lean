import Verif.Lemmas.CmpGadgets2
import Verif.Lemmas.FlatSoundU

/-
Completeness of the flattening of expressions: if an expression has a value then the statements emitted for it succeed
when they are computed honestly.
-/

set_option linter.unusedSectionVars false
set_option linter.unusedVariables false

namespace Zok
variable {p : ℕ} {Z : Type} [Fact p.Prime]
variable {sem : SolverSem (ZMod p) Z} {ρ : Assignment (ZMod p)} {L : ZId → Option Variable} {pre : Prop} {Γ : Ctx}
  {env : ZEnv p}

open FlatExpr Fld

theorem exc_bind_ok {α β : Type} {x : Except Fault α} {f : α → Except Fault β} {v : β} (h : (x >>= f) = .ok v) :
    ∃ a, x = .ok a ∧ f a = .ok v := by
  cases x with
  | error e => cases h
  | ok a => exact ⟨a, rfl, h⟩

/-- Completeness of the flattening of a field expression. -/
def CmpF (sem : SolverSem (ZMod p) Z) (env : ZEnv p) (L : ZId → Option Variable) (ρ : Assignment (ZMod p))
    (e : FExpr (ZMod p)) : Prop :=
  ∀ v, evalF env e = .ok v → ∀ pre, Cmp sem ρ L pre (Flt.flattenF e : FlatM p Z _)
    (fun a => a.val ρ = v ∧ (e.isConst = true → ∃ c, a = .value c))

/-- Completeness of the flattening of a boolean expression. -/
def CmpB (sem : SolverSem (ZMod p) Z) (env : ZEnv p) (L : ZId → Option Variable) (ρ : Assignment (ZMod p))
    (e : BExpr (ZMod p)) : Prop :=
  ∀ b, evalB env e = .ok b → ∀ pre, Cmp sem ρ L pre (Flt.flattenB e : FlatM p Z _) (fun a => a.val ρ = boolF b)

/-- Completeness of the flattening of an unsigned integer expression. -/
def CmpU (sem : SolverSem (ZMod p) Z) (env : ZEnv p) (L : ZId → Option Variable) (ρ : Assignment (ZMod p))
    (e : UExpr (ZMod p)) : Prop :=
  ∀ n, evalU env e = .ok n → ∀ pre, Cmp sem ρ L pre (Flt.flattenU e : FlatM p Z _)
    (fun u => URel ρ e.width e.emax n u ∧ (e.Reduced → URed ρ e.width n u))

/-- Completeness of the flattening of an unsigned integer expression before reduction. -/
def CmpUI (sem : SolverSem (ZMod p) Z) (env : ZEnv p) (L : ZId → Option Variable) (ρ : Assignment (ZMod p)) (w : ℕ)
    (i : UInner (ZMod p)) : Prop :=
  ∀ n, evalUI env w i = .ok n → ∀ pre, Cmp sem ρ L pre (Flt.flattenUI w i : FlatM p Z _) (fun _ => True)

theorem CmpF.of (hs : SndF Z env L ρ e) (h : ∀ v, evalF env e = .ok v → ∀ pre, Cmp sem ρ L pre
    (Flt.flattenF e : FlatM p Z _) (fun a => e.isConst = true → ∃ c, a = .value c)) : CmpF sem env L ρ e := by
  intro v hv pre
  refine ((h v hv pre).sound hs (fun _ => trivial) fun _ h => by rw [hv] at h; cases h).post ?_
  rintro a _ ⟨h1, h2, _⟩
  rw [hv] at h2
  exact ⟨(Except.ok.inj h2).symm, h1⟩

theorem CmpF.of' (hs : SndF Z env L ρ e) (hc : e.isConst = false) (h : ∀ v, evalF env e = .ok v → ∀ pre,
    Cmp sem ρ L pre (Flt.flattenF e : FlatM p Z _) (fun _ => True)) : CmpF sem env L ρ e :=
  CmpF.of hs fun v hv pre => (h v hv pre).post fun _ _ _ h => by rw [hc] at h; cases h

theorem CmpB.of (hs : SndB Z env L ρ e) (h : ∀ v, evalB env e = .ok v → ∀ pre, Cmp sem ρ L pre
    (Flt.flattenB e : FlatM p Z _) (fun _ => True)) : CmpB sem env L ρ e := by
  intro v hv pre
  refine ((h v hv pre).sound hs (fun _ => trivial) fun _ h => by rw [hv] at h; cases h).post ?_
  rintro a _ ⟨_, b, h2, h3⟩
  rw [hv] at h2
  cases h2
  exact h3

theorem CmpU.of (hs : SndU Z env L ρ e) (h : ∀ v, evalU env e = .ok v → ∀ pre, Cmp sem ρ L pre
    (Flt.flattenU e : FlatM p Z _) (fun _ => True)) : CmpU sem env L ρ e := by
  intro v hv pre
  refine ((h v hv pre).sound hs (fun _ => trivial) fun _ h => by rw [hv] at h; cases h).post ?_
  rintro a _ ⟨_, b, h2, h3⟩
  rw [hv] at h2
  cases h2
  exact h3

namespace Cmp

theorem assertReduced (m : Option (UMeta (ZMod p))) : Cmp sem ρ L pre (Flt.assertReduced m : FlatM p Z _)
    (fun _ => True) := by
  unfold Flt.assertReduced Flt.readInfo
  refine Cmp.bind (P := fun _ => True) (Cmp.bind (unwrap _) fun m' => Cmp.bind (unwrap _) fun b =>
    Cmp.pure fun _ => trivial) fun t => (assert _).drop

/-- The field of an integer expression. -/
theorem uField {e : UExpr (ZMod p)} (h : CmpU sem env L ρ e) (hs : SndU Z env L ρ e) (hw : e.width < requiredBits p)
    {n : ℕ} (hn : evalU env e = .ok n) :
    Cmp sem ρ L pre (do let u ← Flt.flattenU e; Flt.getField u : FlatM p Z _)
      (fun f => n < 2 ^ e.width ∧ (f.val ρ).val % 2 ^ e.width = n ∧
        (f.val ρ).val ≤ e.emax ∧ (e.Reduced → (f.val ρ).val = n)) := by
  refine ((Cmp.bind (h n hn pre) fun u => getField u).sound (Sound.uField hs hw) (fun _ => trivial)
    fun _ h => by rw [hn] at h; cases h).post ?_
  rintro f _ ⟨_, n', h1, h2⟩
  rw [hn] at h1; cases h1; exact h2

/-- `UintEq`. -/
theorem uintEq {l r : UExpr (ZMod p)} (hl : CmpU sem env L ρ l) (hr : CmpU sem env L ρ r) {a b : ℕ}
    (ha : evalU env l = .ok a) (hb : evalU env r = .ok b) :
    Cmp sem ρ L pre (Flt.uintEqCheck l.info (Flt.flattenU l) r.info (Flt.flattenU r) : FlatM p Z _)
      (fun _ => True) := by
  unfold Flt.uintEqCheck
  exact Cmp.bind (assertReduced _) fun _ => Cmp.bind (assertReduced _) fun _ => Cmp.bind (hl a ha _) fun _ =>
    Cmp.bind (getField _) fun _ => Cmp.bind (hr b hb _) fun _ => Cmp.bind (getField _) fun _ => (eqCheck _ _).drop

/-- `UintLt`. -/
theorem uintLt {l r : UExpr (ZMod p)} (hl : CmpU sem env L ρ l) (hr : CmpU sem env L ρ r)
    (sl : SndU Z env L ρ l) (sr : SndU Z env L ρ r) (hwl : 2 * l.width + 2 ≤ requiredBits p)
    (h1w : 1 ≤ l.width) (hw : l.width = r.width) (rl : l.Reduced) (rr : r.Reduced) {a b : ℕ}
    (ha : evalU env l = .ok a) (hb : evalU env r = .ok b) :
    Cmp sem ρ L pre (Flt.uintLtCheck l.width l.info (Flt.flattenU l) r.info (Flt.flattenU r) : FlatM p Z _)
      (fun _ => True) := by
  unfold Flt.uintLtCheck
  refine Cmp.bind (assertReduced _) fun _ => Cmp.bind (assertReduced _) fun _ => ?_
  rw [Sound.uField_bind]
  refine Cmp.bind (uField hl sl (by omega) ha) fun x => ?_
  rw [Sound.uField_bind]
  refine Cmp.bind (uField hr sr (by omega) hb) fun y => (ltCheck x y l.width (by omega) (pre := True)).pre_of ?_
  rintro ⟨⟨_, hlt, _, _, hnr⟩, hlt', _, _, hmr⟩
  refine ⟨trivial, fun _ _ => ?_⟩
  rw [hnr rl, hmr rr]
  exact ⟨hlt, hw ▸ hlt'⟩

/-- The condition of a selection. -/
theorem selCond (hp : 2 < p) {idx : UExpr (ZMod p)} (h : CmpU sem env L ρ idx) (hs : SndU Z env L ρ idx)
    (hw : idx.width = 32) (hrb : 66 ≤ requiredBits p) (hr : idx.Reduced) (j : ℕ) (hj : j < 2 ^ 32) {n : ℕ}
    (hn : evalU env idx = .ok n) :
    Cmp sem ρ L pre (Flt.selCond idx.info (Flt.flattenU idx) j : FlatM p Z _)
      (fun k => k.val ρ = boolF (decide (j = n))) := by
  have hp32 : 2 ^ 32 ≤ p := pow_le_p (by omega)
  have hjv : ((j : ℕ) : ZMod p).val = j := val_natCast_of_lt (by omega)
  have key : Cmp sem ρ L pre (Flt.selCond idx.info (Flt.flattenU idx) j : FlatM p Z _) (fun _ => True) := by
    unfold Flt.selCond Flt.uintEqCheck
    refine Cmp.bind (assertReduced _) fun _ => Cmp.bind (assertReduced _) fun _ =>
      Cmp.bind ((uTail 32 j j (j : ZMod p) true (Flt.withField (.value (j : ZMod p))) (by rw [hjv])
        (pre := True)).pre_of fun _ => ⟨trivial, ?_⟩) fun u =>
      Cmp.bind (getField _) fun _ => Cmp.bind (h n hn _) fun _ => Cmp.bind (getField _) fun _ => (eqCheck _ _).drop
    exact URel.ofField hj (by simp only [FlatExpr.val, hjv]; exact Nat.mod_eq_of_lt hj)
      (by simp only [FlatExpr.val, hjv]; exact le_rfl)
  refine (key.sound (Sound.selCond hp hs hw hrb hr j hj) (fun _ => trivial) fun _ h => by
    rw [hn] at h; cases h).post ?_
  rintro k _ ⟨_, n', h1, h2⟩
  rw [hn] at h1; cases h1; exact h2

theorem selGen {α : Type} (f : α → FlatM p Z (FlatExpr (ZMod p))) (c : ℕ → FlatM p Z (FlatExpr (ZMod p))) (n : ℕ)
    (es : List α) (hes : ∀ e ∈ es, ∀ pre, Cmp sem ρ L pre (f e) (fun _ => True))
    (hc : ∀ j, j < 2 ^ 32 → ∀ pre, Cmp sem ρ L pre (c j) (fun k => k.val ρ = boolF (decide (j = n)))) (i : ℕ)
    (hi : i + es.length ≤ 2 ^ 32) :
    Cmp sem ρ L pre (Zok.selGen f es i c) (fun l => SelConds ρ n i l ∧ l.length = es.length) := by
  induction es generalizing i pre with
  | nil => exact Cmp.pure fun _ => ⟨trivial, rfl⟩
  | cons e es ih =>
    rw [Zok.selGen]
    simp only [List.length_cons] at hi
    refine Cmp.bind (hc i (by omega) _) fun k => Cmp.bind (hes e (by simp) _) fun v =>
      Cmp.bind (ih (fun e he => hes e (by simp [he])) (i + 1) (by omega)) fun rest => Cmp.pure ?_
    rintro ⟨⟨⟨_, h1⟩, _⟩, h2, h3⟩
    exact ⟨⟨h1, h2⟩, by simp [h3]⟩

theorem selConds_one {n i : ℕ} {l : List (FlatExpr (ZMod p) × FlatExpr (ZMod p))} (h : SelConds ρ n i l)
    (hi : i ≤ n) (hl : n < i + l.length) : (l.map (fun t => t.1.val ρ)).sum = 1 := by
  induction l generalizing i with
  | nil => simp at hl; omega
  | cons t l ih =>
    obtain ⟨h1, h2⟩ := h
    simp only [List.length_cons] at hl
    by_cases hin : i = n
    · subst hin
      obtain ⟨h3, _⟩ := selConds_past h2 (Nat.lt_succ_self i)
      simp only [List.map_cons, List.sum_cons, h3, h1]
      simp [boolF]
    · have hf : decide (i = n) = false := by simp [hin]
      rw [hf] at h1
      simp only [List.map_cons, List.sum_cons, h1, ih h2 (by omega) (by omega)]
      simp [boolF]

theorem evList_length {α β : Type} {ev : α → Except Fault β} {es : List α} {vs : List β} (h : evList ev es = .ok vs) :
    vs.length = es.length := by
  induction es generalizing vs with
  | nil => cases h; rfl
  | cons e es ih =>
    obtain ⟨v, _, h⟩ := exc_bind_ok h
    obtain ⟨ws, hw, h⟩ := exc_bind_ok h
    cases h
    simp [ih hw]

theorem evList_mem {α β : Type} {ev : α → Except Fault β} {es : List α} {vs : List β} (h : evList ev es = .ok vs) :
    ∀ e ∈ es, ∃ v, ev e = .ok v := by
  induction es generalizing vs with
  | nil => simp
  | cons e es ih =>
    obtain ⟨v, hv, h⟩ := exc_bind_ok h
    obtain ⟨ws, hw, h⟩ := exc_bind_ok h
    intro e' he
    rcases List.mem_cons.1 he with rfl | he
    · exact ⟨v, hv⟩
    · exact ih hw e' he

/-- A whole selection. -/
theorem select {α β : Type} (f : α → FlatM p Z (FlatExpr (ZMod p))) (ev : α → Except Fault β)
    (c : ℕ → FlatM p Z (FlatExpr (ZMod p))) (ix : Except Fault ℕ) (es : List α)
    (hes : ∀ e ∈ es, ∀ v, ev e = .ok v → ∀ pre, Cmp sem ρ L pre (f e) (fun _ => True))
    (hc : ∀ n, ix = .ok n → ∀ j, j < 2 ^ 32 → ∀ pre, Cmp sem ρ L pre (c j) (fun k => k.val ρ = boolF (decide (j = n))))
    (hl : es.length ≤ 2 ^ 32) {v : β} (hv : (do let k ← ix; let vs ← evList ev es; selectVal vs k) = .ok v) :
    Cmp sem ρ L pre (Zok.selGen f es 0 c >>= Flt.selFinish) (fun _ => True) := by
  obtain ⟨n, hn, hv⟩ := exc_bind_ok hv
  obtain ⟨vs, hvs, hv⟩ := exc_bind_ok hv
  have hlen := evList_length hvs
  have hlt : n < vs.length := by
    unfold selectVal at hv
    cases h : vs[n]? with
    | none => rw [h] at hv; cases hv
    | some x => exact (List.getElem?_eq_some_iff.1 h).1
  refine Cmp.bind (selGen f c n es (fun e he => ?_) (hc n hn) 0 (by omega)) fun l =>
    (selFinish l (pre := True)).pre_of ?_
  · obtain ⟨w, hw⟩ := evList_mem hvs e he
    exact hes e he w hw
  · rintro ⟨_, h1, h2⟩
    exact ⟨trivial, selConds_one h1 (Nat.zero_le n) (by omega)⟩

theorem twoFields {l r : UExpr (ZMod p)} (hl : CmpU sem env L ρ l) (hr : CmpU sem env L ρ r) {a b : ℕ}
    (ha : evalU env l = .ok a) (hb : evalU env r = .ok b) :
    Cmp sem ρ L pre (Flt.twoFields (Flt.flattenU l) (Flt.flattenU r) : FlatM p Z _) (fun _ => True) := by
  unfold Flt.twoFields
  exact Cmp.bind (hl a ha _) fun _ => Cmp.bind (getField _) fun _ => Cmp.bind (hr b hb _) fun _ =>
    Cmp.bind (getField _) fun _ => Cmp.bind (linearise _) fun _ => Cmp.bind (linearise _) fun _ =>
    Cmp.pure fun _ => trivial

theorem twoLinear {l r : FExpr (ZMod p)} (hl : CmpF sem env L ρ l) (hr : CmpF sem env L ρ r) {a b : ZMod p}
    (ha : evalF env l = .ok a) (hb : evalF env r = .ok b) :
    Cmp sem ρ L pre (Flt.twoLinear (Flt.flattenF l) (Flt.flattenF r) : FlatM p Z _) (fun _ => True) := by
  unfold Flt.twoLinear
  exact Cmp.bind (hl a ha _) fun _ => Cmp.bind (hr b hb _) fun _ => Cmp.bind (linearise _) fun _ =>
    Cmp.bind (linearise _) fun _ => Cmp.pure fun _ => trivial

theorem euclidU {w : ℕ} (hrb : 2 * w + 2 ≤ requiredBits p) {l r : UExpr (ZMod p)}
    (hl : CmpU sem env L ρ l) (hr : CmpU sem env L ρ r) (sl : SndU Z env L ρ l) (sr : SndU Z env L ρ r)
    (hwl : l.width = w) (hwr : r.width = w) (rl : l.Reduced)
    (rr : r.Reduced) {n m : ℕ} (hn : evalU env l = .ok n) (hm : evalU env r = .ok m) (h0 : m ≠ 0)
    {β : Type} {k : Variable × Variable → FlatM p Z β}
    {R : β → Prop} (hk : ∀ t pre, Cmp sem ρ L pre (k t) R) :
    Cmp sem ρ L pre (do
      let a ← Flt.flattenU l
      let a ← Flt.getField a
      let b ← Flt.flattenU r
      let b ← Flt.getField b
      let t ← Flt.euclid w a b
      k t) R := by
  rw [Sound.uField_bind]
  refine Cmp.bind (uField hl sl (by omega) hn) fun a => ?_
  rw [Sound.uField_bind]
  refine Cmp.bind (uField hr sr (by omega) hm) fun b =>
    Cmp.bind ((euclid w a b hrb (pre := True)).pre_of ?_) fun t => hk t _
  rintro ⟨⟨_, n1, _, _, n2⟩, m1, _, _, m2⟩
  have e1 := n2 rl
  have e2 := m2 rr
  refine ⟨trivial, by rw [e1]; exact hwl ▸ n1, by rw [e2]; exact hwr ▸ m1, fun h => h0 ?_⟩
  rw [← e2, h, ZMod.val_zero]

theorem threeBits {a b c : UExpr (ZMod p)}
    {f : FlatExpr (ZMod p) → FlatExpr (ZMod p) → FlatExpr (ZMod p) → FlatM p Z (FlatExpr (ZMod p))}
    (ha : CmpU sem env L ρ a) (hb : CmpU sem env L ρ b) (hc : CmpU sem env L ρ c)
    (hf : ∀ a b c pre, Cmp sem ρ L pre (f a b c) (fun _ => True))
    {x y z : ℕ} (h1 : evalU env a = .ok x) (h2 : evalU env b = .ok y) (h3 : evalU env c = .ok z) :
    Cmp sem ρ L pre (Flt.threeBits f (Flt.flattenU a) (Flt.flattenU b) (Flt.flattenU c)) (fun _ => True) := by
  unfold Flt.threeBits
  exact Cmp.bind (ha x h1 _) fun _ => Cmp.bind (hb y h2 _) fun _ => Cmp.bind (hc z h3 _) fun _ =>
    Cmp.bind (unwrap _) fun _ => Cmp.bind (unwrap _) fun _ => Cmp.bind (unwrap _) fun _ =>
    Cmp.bind (zipBits3 hf _ _ _) fun _ => Cmp.pure fun _ => trivial

theorem defaultXor {l r : UExpr (ZMod p)} (hl : CmpU sem env L ρ l) (hr : CmpU sem env L ρ r) {a b : ℕ}
    (ha : evalU env l = .ok a) (hb : evalU env r = .ok b) :
    Cmp sem ρ L pre (Flt.defaultXor (Flt.flattenU l) (Flt.flattenU r) : FlatM p Z _) (fun _ => True) := by
  unfold Flt.defaultXor
  exact Cmp.bind (hl a ha _) fun _ => Cmp.bind (hr b hb _) fun _ => Cmp.bind (unwrap _) fun _ =>
    Cmp.bind (unwrap _) fun _ => Cmp.bind (zipBits (fun a b pre => xorBit a b) _ _) fun _ => Cmp.pure fun _ => trivial

theorem bitwise (w : ℕ) {f : FlatExpr (ZMod p) → FlatExpr (ZMod p) → FlatM p Z (FlatExpr (ZMod p))}
    (hf : ∀ a b pre, Cmp sem ρ L pre (f a b) (fun _ => True)) {l r : UExpr (ZMod p)} (hl : CmpU sem env L ρ l)
    (hr : CmpU sem env L ρ r) {a b : ℕ} (ha : evalU env l = .ok a) (hb : evalU env r = .ok b) :
    Cmp sem ρ L pre (Flt.bitwise w f (Flt.flattenU l) (Flt.flattenU r) : FlatM p Z _) (fun _ => True) := by
  unfold Flt.bitwise
  exact Cmp.bind (hl a ha _) fun _ => Cmp.bind (hr b hb _) fun _ => Cmp.bind (unwrap _) fun _ =>
    Cmp.bind (unwrap _) fun _ => Cmp.bind (assert _) fun _ => Cmp.bind (assert _) fun _ =>
    Cmp.bind (zipBits hf _ _) fun _ => Cmp.pure fun _ => trivial

theorem exc_bind2 {α β γ : Type} {x : Except Fault α} {y : Except Fault β} {f : α → β → Except Fault γ} {v : γ}
    (h : (do let a ← x; let b ← y; f a b) = .ok v) : ∃ a b, x = .ok a ∧ y = .ok b ∧ f a b = .ok v := by
  obtain ⟨a, ha, h⟩ := exc_bind_ok h
  obtain ⟨b, hb, h⟩ := exc_bind_ok h
  exact ⟨a, b, ha, hb, h⟩

theorem exc_bind3 {α β γ δ : Type} {x : Except Fault α} {y : Except Fault β} {z : Except Fault γ}
    {f : α → β → γ → Except Fault δ} {v : δ}
    (h : (do let a ← x; let b ← y; let c ← z; f a b c) = .ok v) :
    ∃ a b c, x = .ok a ∧ y = .ok b ∧ z = .ok c ∧ f a b c = .ok v := by
  obtain ⟨a, ha, h⟩ := exc_bind_ok h
  obtain ⟨b, c, hb, hc, h⟩ := exc_bind2 h
  exact ⟨a, b, c, ha, hb, hc, h⟩

end Cmp

open Cmp

/-! ### Field expressions -/

theorem cmpF_pow {b : FExpr (ZMod p)} (hb : CmpF sem env L ρ b) {w : ℕ} {m : Option (UMeta (ZMod p))} {n : ℕ}
    (hn : n < 2 ^ 128) (hs : SndF Z env L ρ (.pow b (.mk w m (.value n)))) :
    CmpF sem env L ρ (.pow b (.mk w m (.value n))) := by
  refine CmpF.of hs fun v hv pre => ?_
  rw [evalF] at hv
  obtain ⟨a, ha, _⟩ := exc_bind_ok hv
  rw [Flt.flattenF]
  simp only [UExpr.inner]
  refine Cmp.bind (hb a ha pre) fun x => ?_
  by_cases h0 : n = 0
  · subst h0
    have : Flt.expBits 0 = [] := by decide
    unfold Flt.powFlat
    rw [this]
    exact Cmp.bind (Cmp.assert _) fun _ => Cmp.pure fun _ _ => ⟨_, rfl⟩
  · refine (powFlat x n).post fun _ _ _ h => ?_
    cases n with
    | zero => exact absurd rfl h0
    | succ n => simp [FExpr.isConst] at h

theorem cmpB_fieldLtCheck {l r : FExpr (ZMod p)} {a b : FlatExpr (ZMod p)} {x y : ZMod p}
    (hd : cmpDefined p (l.isConst || r.isConst) x y)
    (h : pre → (a.val ρ = x ∧ (l.isConst = true → ∃ c, a = .value c)) ∧
      (b.val ρ = y ∧ (r.isConst = true → ∃ c, b = .value c))) :
    Cmp sem ρ L pre (Flt.fieldLtCheck a b : FlatM p Z _) (fun _ => True) := by
  refine (fieldLtCheck a b (pre := True)).pre_of fun hp => ⟨trivial, ?_⟩
  obtain ⟨⟨h1, h2⟩, h3, h4⟩ := h hp
  rcases hd with hd | hd
  · rcases Bool.or_eq_true _ _ ▸ hd with hd | hd
    · exact Or.inl (h2 hd)
    · exact Or.inr (Or.inl (h4 hd))
  · rw [← h1, ← h3] at hd
    exact Or.inr (Or.inr hd)

/-- Completeness of the flattening of an unsigned integer expression before reduction, given that of its parts. -/
theorem cmpUI_of (hp : 2 < p) (w mx : ℕ) (i : UInner (ZMod p))
    (ihB : ∀ e : BExpr (ZMod p), sizeOf e < sizeOf i → OkB Γ e → CmpB sem env L ρ e)
    (ihU : ∀ e : UExpr (ZMod p), sizeOf e < sizeOf i → OkU Γ e → CmpU sem env L ρ e)
    (sB : ∀ e : BExpr (ZMod p), OkB Γ e → SndB Z env L ρ e) (sU : ∀ e : UExpr (ZMod p), OkU Γ e → SndU Z env L ρ e)
    (h1 : 1 ≤ w) (h2 : 2 * w + 2 ≤ requiredBits p) (hok : OkUI Γ w mx i) : CmpUI sem env L ρ w i := by
  have h66 : ∀ i : UExpr (ZMod p), OkU Γ i → i.width = 32 → 66 ≤ requiredBits p := by
    rintro ⟨w, m, i⟩ h hw
    simp only [OkU] at h
    simp only [UExpr.width] at hw
    omega
  have hmem : ∀ {α : Type} [SizeOf α] (e : α) (es : List α), e ∈ es → sizeOf e < sizeOf es :=
    fun e es h => List.sizeOf_lt_of_mem h
  intro v hv pre
  cases i with
  | value k => rw [Flt.flattenUI]; exact Cmp.pure fun _ => trivial
  | ident x =>
    rw [Flt.flattenUI]
    refine Cmp.bind (Cmp.lookup x) fun y => Cmp.bind (Cmp.getCache _) fun c => ?_
    cases c with
    | none => exact Cmp.pure fun _ => trivial
    | some c => exact Cmp.bind (Cmp.assert _) fun _ => Cmp.pure fun _ => trivial
  | select es i =>
    simp only [OkUI] at hok
    obtain ⟨h3, h4, h5, h6, h7⟩ := hok
    rw [evalUI, evalUs_eq] at hv
    rw [Flt.flattenUI]
    simp only [flattenSelU_eq]
    exact Cmp.select _ (evalU env) _ (evalU env i) es
      (fun e he w hw pre => Cmp.bind (ihU e (by have := hmem e es he; simp; omega) (okUs_mem h3 e he).1 w hw _)
        fun _ => Cmp.getField _)
      (fun k hk j hj pre => Cmp.selCond hp (ihU i (by simp <;> omega) h5) (sU i h5) h6 (h66 i h5 h6) h7 j hj hk) h4 hv
  | add l r =>
    simp only [OkUI] at hok
    obtain ⟨h3, h4, h5, h6, h7⟩ := hok
    rw [evalUI] at hv
    obtain ⟨a, b, ha, hb, _⟩ := exc_bind2 hv
    rw [Flt.flattenUI]
    exact Cmp.bind (Cmp.twoFields (ihU l (by simp <;> omega) h3) (ihU r (by simp <;> omega) h4) ha hb) fun _ =>
      Cmp.pure fun _ => trivial
  | sub l r =>
    simp only [OkUI] at hok
    obtain ⟨h3, h4, h5, h6, h7⟩ := hok
    rw [evalUI] at hv
    obtain ⟨a, b, ha, hb, _⟩ := exc_bind2 hv
    rw [Flt.flattenUI]
    exact Cmp.bind (Cmp.unwrap _) fun _ => Cmp.bind (Cmp.twoFields (ihU l (by simp <;> omega) h3)
      (ihU r (by simp <;> omega) h4) ha hb) fun _ => Cmp.pure fun _ => trivial
  | mult l r =>
    simp only [OkUI] at hok
    obtain ⟨h3, h4, h5, h6, h7⟩ := hok
    rw [evalUI] at hv
    obtain ⟨a, b, ha, hb, _⟩ := exc_bind2 hv
    rw [Flt.flattenUI]
    exact Cmp.bind (Cmp.twoFields (ihU l (by simp <;> omega) h3) (ihU r (by simp <;> omega) h4) ha hb) fun _ =>
      Cmp.bind (Cmp.newDef _) fun _ => Cmp.pure fun _ => trivial
  | div l r =>
    simp only [OkUI] at hok
    obtain ⟨h3, h4, h5, h6, h7, h8, h9⟩ := hok
    rw [evalUI] at hv
    obtain ⟨a, b, ha, hb, hv⟩ := exc_bind2 hv
    have hb0 : b ≠ 0 := by rintro rfl; simp at hv
    rw [Flt.flattenUI]
    exact Cmp.euclidU h2 (ihU l (by simp <;> omega) h3) (ihU r (by simp <;> omega) h4) (sU l h3) (sU r h4) h5 h6 h7 h8
      ha hb hb0 fun t pre => Cmp.pure fun _ => trivial
  | rem l r =>
    simp only [OkUI] at hok
    obtain ⟨h3, h4, h5, h6, h7, h8, h9⟩ := hok
    rw [evalUI] at hv
    obtain ⟨a, b, ha, hb, hv⟩ := exc_bind2 hv
    have hb0 : b ≠ 0 := by rintro rfl; simp at hv
    rw [Flt.flattenUI]
    exact Cmp.euclidU h2 (ihU l (by simp <;> omega) h3) (ihU r (by simp <;> omega) h4) (sU l h3) (sU r h4) h5 h6 h7 h8
      ha hb hb0 fun t pre => Cmp.pure fun _ => trivial
  | xor l r =>
    simp only [OkUI] at hok
    obtain ⟨h3, h4, h5, h6, h7, h8, h9⟩ := hok
    rw [evalUI] at hv
    obtain ⟨a, b, ha, hb, _⟩ := exc_bind2 hv
    simp only [UInner.xor.sizeOf_spec] at ihU
    refine flattenUI_xor_cases w l r (fun m => ∀ pre, Cmp sem ρ L pre m (fun _ => True)) ?_ ?_ ?_
      (fun pre => Cmp.defaultXor (ihU l (by omega) h3) (ihU r (by omega) h4) ha hb) pre
    · intro o m h pre
      exact Cmp.bind (Cmp.unwrap o) fun _ => h _
    · rintro wl ml x y wr mr wa ma c rfl rfl pre
      simp only [OkU, OkUI] at h3 h4
      obtain ⟨_, _, _, hx, hy, _⟩ := h3
      obtain ⟨_, _, _, _, hc, _⟩ := h4
      simp only [evalU, evalUI] at ha hb
      obtain ⟨x', y', hx', hy', _⟩ := exc_bind2 ha
      obtain ⟨_, c', _, hc', _⟩ := exc_bind2 hb
      exact Cmp.threeBits (ihU x (by simp; omega) hx) (ihU y (by simp; omega) hy) (ihU c (by simp; omega) hc)
        (fun a b c pre => Cmp.chBit a b c) hx' hy' hc'
    · rintro wl ml w0 m0 x y w1 m1 c wr mr rfl rfl pre
      simp only [OkU, OkUI] at h3 h4
      obtain ⟨_, _, _, ⟨_, _, _, hx, hy, _⟩, _⟩ := h3
      obtain ⟨_, _, _, _, hc, _⟩ := h4
      simp only [evalU, evalUI] at ha hb
      obtain ⟨x1, _, hx1, _, _⟩ := exc_bind2 ha
      obtain ⟨x', _, hx', _, _⟩ := exc_bind2 hx1
      obtain ⟨y', c', hy', hc', _⟩ := exc_bind2 hb
      exact Cmp.threeBits (ihU x (by simp; omega) hx) (ihU y (by simp; omega) hy) (ihU c (by simp; omega) hc)
        (fun a b c pre => Cmp.majBit a b c) hx' hy' hc'
  | and l r =>
    simp only [OkUI] at hok
    obtain ⟨h3, h4, h5, h6, h7, h8, h9⟩ := hok
    rw [evalUI] at hv
    obtain ⟨a, b, ha, hb, _⟩ := exc_bind2 hv
    rw [Flt.flattenUI]
    exact Cmp.bitwise w (fun a b pre => Cmp.andBit a b) (ihU l (by simp <;> omega) h3) (ihU r (by simp <;> omega) h4)
      ha hb
  | or l r =>
    simp only [OkUI] at hok
    obtain ⟨h3, h4, h5, h6, h7, h8, h9⟩ := hok
    rw [evalUI] at hv
    obtain ⟨a, b, ha, hb, _⟩ := exc_bind2 hv
    rw [Flt.flattenUI]
    exact Cmp.bitwise w (fun a b pre => Cmp.orBit a b) (ihU l (by simp <;> omega) h3) (ihU r (by simp <;> omega) h4)
      ha hb
  | leftShift e b =>
    simp only [OkUI] at hok
    obtain ⟨h3, h4, h5, wb, mb, k, rfl, h6, h7⟩ := hok
    rw [evalUI] at hv
    obtain ⟨a, ha, _⟩ := exc_bind_ok hv
    rw [Flt.flattenUI]
    simp only [UExpr.inner]
    exact Cmp.bind (ihU e (by simp <;> omega) h3 a ha _) fun _ => Cmp.bind (Cmp.unwrap _) fun _ =>
      Cmp.bind (Cmp.assert _) fun _ => Cmp.pure fun _ => trivial
  | rightShift e b =>
    simp only [OkUI] at hok
    obtain ⟨h3, h4, h5, wb, mb, k, rfl, h6, h7⟩ := hok
    rw [evalUI] at hv
    obtain ⟨a, ha, _⟩ := exc_bind_ok hv
    rw [Flt.flattenUI]
    simp only [UExpr.inner]
    exact Cmp.bind (ihU e (by simp <;> omega) h3 a ha _) fun _ => Cmp.bind (Cmp.unwrap _) fun _ =>
      Cmp.bind (Cmp.assert _) fun _ => Cmp.pure fun _ => trivial
  | not e =>
    simp only [OkUI] at hok
    obtain ⟨h3, h4, h5, h6⟩ := hok
    rw [evalUI] at hv
    obtain ⟨a, ha, _⟩ := exc_bind_ok hv
    rw [Flt.flattenUI]
    exact Cmp.bind (ihU e (by simp <;> omega) h3 a ha _) fun _ => Cmp.bind (Cmp.unwrap _) fun _ =>
      Cmp.bind (Cmp.assert _) fun _ => Cmp.bind (Cmp.mapBits (fun a pre => Cmp.notBit a) _) fun _ =>
      Cmp.pure fun _ => trivial
  | cond c t e =>
    simp only [OkUI] at hok
    obtain ⟨h3, h4, h5, h6, h7, h8, h9⟩ := hok
    rw [evalUI] at hv
    obtain ⟨b, x, y, hb, hx, hy, _⟩ := exc_bind3 hv
    rw [Flt.flattenUI]
    exact Cmp.conditional (fun _ => (ihB c (by simp <;> omega) h3 b hb _).drop)
      (fun _ => Cmp.bind (ihU t (by simp <;> omega) h4 x hx _) fun _ => Cmp.getField _)
      (fun _ => Cmp.bind (ihU e (by simp <;> omega) h5 y hy _) fun _ => Cmp.getField _)

/-- Completeness of the flattening of all well-formed expressions. -/
theorem cmp_all (sem : SolverSem (ZMod p) Z) (hp : 2 < p) (henv : EnvOk Γ env L ρ) (n : ℕ) :
    (∀ e : FExpr (ZMod p), sizeOf e < n → OkF Γ e → CmpF sem env L ρ e) ∧
    (∀ e : BExpr (ZMod p), sizeOf e < n → OkB Γ e → CmpB sem env L ρ e) ∧
    (∀ e : UExpr (ZMod p), sizeOf e < n → OkU Γ e → CmpU sem env L ρ e) := by
  induction n with
  | zero => exact ⟨fun _ h => absurd h (by omega), fun _ h => absurd h (by omega), fun _ h => absurd h (by omega)⟩
  | succ n ih =>
    obtain ⟨ihF, ihB, ihU⟩ := ih
    have h66 : ∀ i : UExpr (ZMod p), OkU Γ i → i.width = 32 → 66 ≤ requiredBits p := by
      rintro ⟨w, m, i⟩ h hw
      simp only [OkU] at h
      simp only [UExpr.width] at hw
      omega
    have hwd : ∀ i : UExpr (ZMod p), OkU Γ i → 1 ≤ i.width ∧ 2 * i.width + 2 ≤ requiredBits p := by
      rintro ⟨w, m, i⟩ h
      simp only [OkU] at h
      exact ⟨h.2.1, h.2.2.1⟩
    have hmem : ∀ {α : Type} [SizeOf α] (e : α) (es : List α), e ∈ es → sizeOf e < sizeOf es :=
      fun e es h => List.sizeOf_lt_of_mem h
    have sF : ∀ e : FExpr (ZMod p), OkF Γ e → SndF Z env L ρ e := fun e h => sndF_of_ok hp henv h
    have sB : ∀ e : BExpr (ZMod p), OkB Γ e → SndB Z env L ρ e := fun e h => sndB_of_ok hp henv h
    have sU : ∀ e : UExpr (ZMod p), OkU Γ e → SndU Z env L ρ e := fun e h => sndU_of_ok hp henv h
    refine ⟨?_, ?_, ?_⟩
    · intro e hn hok
      have hs := sF e hok
      cases e with
      | value x =>
        refine CmpF.of hs fun v hv pre => ?_
        rw [Flt.flattenF]
        exact Cmp.pure fun _ _ => ⟨_, rfl⟩
      | ident x =>
        refine CmpF.of' hs rfl fun v hv pre => ?_
        rw [Flt.flattenF]
        exact Cmp.bind (Cmp.lookup x) fun _ => Cmp.pure fun _ => trivial
      | select es i =>
        simp only [OkF] at hok
        obtain ⟨h1, h2, h3, h4, h5⟩ := hok
        simp at hn
        refine CmpF.of' hs rfl fun v hv pre => ?_
        rw [evalF, evalFs_eq] at hv
        rw [Flt.flattenF]
        simp only [flattenSelF_eq]
        rw [← bind_assoc]
        exact Cmp.bind (Cmp.select _ (evalF env) _ (evalU env i) es
          (fun e he w hw pre => (ihF e (by have := hmem e es he; omega) (okFs_mem h1 e he) w hw pre).drop)
          (fun k hk j hj pre => Cmp.selCond hp (ihU i (by omega) h3) (sU i h3) h4 (h66 i h3 h4) h5 j hj hk) h2 hv)
          fun _ => Cmp.getField _
      | add l r =>
        simp only [OkF] at hok; simp at hn
        refine CmpF.of' hs rfl fun v hv pre => ?_
        rw [evalF] at hv
        obtain ⟨a, b, ha, hb, _⟩ := exc_bind2 hv
        rw [Flt.flattenF]
        exact Cmp.bind (Cmp.twoLinear (ihF l (by omega) hok.1) (ihF r (by omega) hok.2) ha hb) fun _ =>
          Cmp.pure fun _ => trivial
      | sub l r =>
        simp only [OkF] at hok; simp at hn
        refine CmpF.of' hs rfl fun v hv pre => ?_
        rw [evalF] at hv
        obtain ⟨a, b, ha, hb, _⟩ := exc_bind2 hv
        rw [Flt.flattenF]
        exact Cmp.bind (Cmp.twoLinear (ihF l (by omega) hok.1) (ihF r (by omega) hok.2) ha hb) fun _ =>
          Cmp.pure fun _ => trivial
      | mult l r =>
        simp only [OkF] at hok; simp at hn
        refine CmpF.of' hs rfl fun v hv pre => ?_
        rw [evalF] at hv
        obtain ⟨a, b, ha, hb, _⟩ := exc_bind2 hv
        rw [Flt.flattenF]
        exact Cmp.bind (Cmp.twoLinear (ihF l (by omega) hok.1) (ihF r (by omega) hok.2) ha hb) fun _ =>
          Cmp.pure fun _ => trivial
      | div l r =>
        simp only [OkF] at hok; simp at hn
        refine CmpF.of' hs rfl fun v hv pre => ?_
        rw [evalF] at hv
        obtain ⟨a, b, ha, hb, hv⟩ := exc_bind2 hv
        have hb0 : b ≠ 0 := by rintro rfl; simp at hv
        rw [Flt.flattenF]
        refine Cmp.bind (ihF l (by omega) hok.1 a ha _) fun x => Cmp.bind (ihF r (by omega) hok.2 b hb _) fun y =>
          (Cmp.divFlat x y (pre := True)).pre_of fun h => ⟨trivial, ?_⟩
        rw [h.2.1]; exact hb0
      | pow b e =>
        simp only [OkF] at hok; simp at hn
        obtain ⟨h1, w, m, k, rfl, hk⟩ := hok
        exact cmpF_pow (ihF b (by omega) h1) hk hs
      | cond c t e =>
        simp only [OkF] at hok; simp at hn
        refine CmpF.of' hs rfl fun v hv pre => ?_
        rw [evalF] at hv
        obtain ⟨b, x, y, hb, hx, hy, _⟩ := exc_bind3 hv
        rw [Flt.flattenF]
        exact Cmp.bind (Cmp.conditional (fun _ => (ihB c (by omega) hok.1 b hb _).drop)
          (fun _ => (ihF t (by omega) hok.2.1 x hx _).drop) fun _ => (ihF e (by omega) hok.2.2 y hy _).drop) fun _ =>
          Cmp.getField _
      | and _ _ => exact absurd hok (by simp [OkF])
      | or _ _ => exact absurd hok (by simp [OkF])
      | xor _ _ => exact absurd hok (by simp [OkF])
      | leftShift _ _ => exact absurd hok (by simp [OkF])
      | rightShift _ _ => exact absurd hok (by simp [OkF])
    · intro e hn hok
      refine CmpB.of (sB e hok) fun v hv pre => ?_
      cases e with
      | value _ => rw [Flt.flattenB]; exact Cmp.pure fun _ => trivial
      | ident x => rw [Flt.flattenB]; exact Cmp.bind (Cmp.lookup x) fun _ => Cmp.pure fun _ => trivial
      | select es i =>
        simp only [OkB] at hok
        obtain ⟨h1, h2, h3, h4, h5⟩ := hok
        simp at hn
        rw [evalB, evalBs_eq] at hv
        rw [Flt.flattenB]
        simp only [flattenSelB_eq]
        rw [← bind_assoc]
        exact Cmp.bind (Cmp.select _ (evalB env) _ (evalU env i) es
          (fun e he w hw pre => (ihB e (by have := hmem e es he; omega) (okBs_mem h1 e he) w hw pre).drop)
          (fun k hk j hj pre => Cmp.selCond hp (ihU i (by omega) h3) (sU i h3) h4 (h66 i h3 h4) h5 j hj hk) h2 hv)
          fun _ => Cmp.getField _
      | fieldLt l r =>
        simp only [OkB] at hok; simp at hn
        rw [evalB] at hv
        obtain ⟨a, b, ha, hb, hv⟩ := exc_bind2 hv
        have hd : cmpDefined p (l.isConst || r.isConst) a b := by
          by_contra h; rw [if_neg h] at hv; cases hv
        rw [Flt.flattenB]
        exact Cmp.bind (ihF l (by omega) hok.1 a ha _) fun x => Cmp.bind (ihF r (by omega) hok.2 b hb _) fun y =>
          cmpB_fieldLtCheck hd fun h => ⟨h.1.2, h.2⟩
      | fieldLe l r =>
        simp only [OkB] at hok; simp at hn
        rw [evalB] at hv
        obtain ⟨a, b, ha, hb, hv⟩ := exc_bind2 hv
        have hd : cmpDefined p (l.isConst || r.isConst) a b := by
          by_contra h; rw [if_neg h] at hv; cases hv
        rw [Flt.flattenB]
        exact Cmp.bind (ihF l (by omega) hok.1 a ha _) fun x => Cmp.bind (ihF r (by omega) hok.2 b hb _) fun y =>
          Cmp.bind (cmpB_fieldLtCheck hd fun h => ⟨h.1.2, h.2⟩) fun _ =>
          Cmp.bind (ihF l (by omega) hok.1 a ha _) fun x => Cmp.bind (ihF r (by omega) hok.2 b hb _) fun y =>
          Cmp.bind (Cmp.eqCheck x y) fun _ => Cmp.pure fun _ => trivial
      | fieldEq l r =>
        simp only [OkB] at hok; simp at hn
        rw [evalB] at hv
        obtain ⟨a, b, ha, hb, hv⟩ := exc_bind2 hv
        rw [Flt.flattenB]
        exact Cmp.bind (ihF l (by omega) hok.1 a ha _) fun x => Cmp.bind (ihF r (by omega) hok.2 b hb _) fun y =>
          (Cmp.eqCheck x y).drop
      | uintLt l r =>
        simp only [OkB] at hok; simp at hn
        obtain ⟨h1, h2, h3, h4, h5⟩ := hok
        rw [evalB] at hv
        obtain ⟨a, b, ha, hb, hv⟩ := exc_bind2 hv
        rw [Flt.flattenB]
        exact Cmp.uintLt (ihU l (by omega) h1) (ihU r (by omega) h2) (sU l h1) (sU r h2) (hwd l h1).2 (hwd l h1).1
          h3 h4 h5 ha hb
      | uintLe l r =>
        simp only [OkB] at hok; simp at hn
        obtain ⟨h1, h2, h3, h4, h5⟩ := hok
        rw [evalB] at hv
        obtain ⟨a, b, ha, hb, hv⟩ := exc_bind2 hv
        rw [Flt.flattenB]
        exact Cmp.bind (Cmp.uintLt (ihU l (by omega) h1) (ihU r (by omega) h2) (sU l h1) (sU r h2) (hwd l h1).2
          (hwd l h1).1 h3 h4 h5 ha hb) fun _ => Cmp.bind (Cmp.uintEq (ihU l (by omega) h1) (ihU r (by omega) h2) ha hb)
          fun _ => Cmp.pure fun _ => trivial
      | uintEq l r =>
        simp only [OkB] at hok; simp at hn
        obtain ⟨h1, h2, h3, h4, h5⟩ := hok
        rw [evalB] at hv
        obtain ⟨a, b, ha, hb, hv⟩ := exc_bind2 hv
        rw [Flt.flattenB]
        exact Cmp.uintEq (ihU l (by omega) h1) (ihU r (by omega) h2) ha hb
      | boolEq l r =>
        simp only [OkB] at hok; simp at hn
        rw [evalB] at hv
        obtain ⟨a, b, ha, hb, hv⟩ := exc_bind2 hv
        rw [Flt.flattenB]
        exact Cmp.bind (ihB l (by omega) hok.1 a ha _) fun x => Cmp.bind (ihB r (by omega) hok.2 b hb _) fun y =>
          Cmp.bind (Cmp.newDef _) fun _ => Cmp.pure fun _ => trivial
      | or l r =>
        simp only [OkB] at hok; simp at hn
        rw [evalB] at hv
        obtain ⟨a, b, ha, hb, hv⟩ := exc_bind2 hv
        rw [Flt.flattenB]
        exact Cmp.bind (ihB l (by omega) hok.1 a ha _) fun x => Cmp.bind (ihB r (by omega) hok.2 b hb _) fun y =>
          Cmp.boolOr x y
      | and l r =>
        simp only [OkB] at hok; simp at hn
        rw [evalB] at hv
        obtain ⟨a, b, ha, hb, hv⟩ := exc_bind2 hv
        rw [Flt.flattenB]
        exact Cmp.bind (ihB l (by omega) hok.1 a ha _) fun x => Cmp.bind (ihB r (by omega) hok.2 b hb _) fun y =>
          Cmp.bind Cmp.useSym fun _ => Cmp.bind (Cmp.assert _) fun _ => Cmp.bind (Cmp.defn _ _) fun _ =>
          Cmp.pure fun _ => trivial
      | not e =>
        simp only [OkB] at hok; simp at hn
        rw [evalB] at hv
        obtain ⟨a, ha, _⟩ := exc_bind_ok hv
        rw [Flt.flattenB]
        exact Cmp.bind (ihB e (by omega) hok a ha _) fun x => Cmp.pure fun _ => trivial
      | cond c t e =>
        simp only [OkB] at hok; simp at hn
        rw [evalB] at hv
        obtain ⟨b, x, y, hb, hx, hy, _⟩ := exc_bind3 hv
        rw [Flt.flattenB]
        exact Cmp.bind (Cmp.conditional (fun _ => (ihB c (by omega) hok.1 b hb _).drop)
          (fun _ => (ihB t (by omega) hok.2.1 x hx _).drop) fun _ => (ihB e (by omega) hok.2.2 y hy _).drop) fun _ =>
          Cmp.getField _
    · rintro ⟨w, m, i⟩ hn hok
      refine CmpU.of (sU _ hok) fun v hv pre => ?_
      rw [evalU] at hv
      simp only [OkU] at hok
      obtain ⟨⟨m', rfl, hmx⟩, h1, h2, hok⟩ := hok
      have hax : UExpr.amax (.mk w (some m') i) = m'.max.val := rfl
      rw [hax] at hok
      have hsnd : SndUI Z env L ρ w m'.max.val i := sndUI_of_ok hp henv hmx h1 h2 hok
      rw [Flt.flattenU]
      have hr : Cmp sem ρ L pre (Flt.readInfo (some m') : FlatM p Z _) (fun t => t.1 = m'.max) := by
        unfold Flt.readInfo
        refine Cmp.bind (Cmp.unwrap _) fun m'' => Cmp.bind (Cmp.unwrap _) fun b => Cmp.pure ?_
        rintro ⟨⟨_, h⟩, _⟩
        cases h; rfl
      simp at hn
      have key : ∀ pre, Cmp sem ρ L pre (Flt.flattenUI w i : FlatM p Z _) (fun _ => True) :=
        cmpUI_of hp w _ i (fun e he hk => ihB e (by omega) hk) (fun e he hk => ihU e (by omega) hk) sB sU h1 h2 hok v hv
      have key' : ∀ pre, Cmp sem ρ L pre (Flt.flattenUI w i : FlatM p Z _) (fun u => URel ρ w m'.max.val v u) := by
        intro pre
        refine ((key pre).sound hsnd (fun _ => trivial) fun _ h => by rw [hv] at h; cases h).post ?_
        rintro u _ ⟨_, n', h1, h2⟩
        rw [hv] at h1; cases h1; exact h2
      refine Cmp.bind hr fun t => ?_
      obtain ⟨mx, red⟩ := t
      simp only
      by_cases hmx' : mx = m'.max
      · subst hmx'
        exact Cmp.bind (key' _) fun u => (Cmp.uTail w m'.max.val v m'.max red u le_rfl (pre := True)).pre_of
          fun h => ⟨trivial, h.2⟩
      · exact Cmp.bind (key' _) fun u => (Cmp.of_mono (Mono.uTail _ _ _ _)).pre_of fun h => hmx' h.1.2

theorem cmpF_of_ok (hp : 2 < p) (henv : EnvOk Γ env L ρ) {e : FExpr (ZMod p)} (h : OkF Γ e) : CmpF sem env L ρ e :=
  (cmp_all sem hp henv (sizeOf e + 1)).1 e (by omega) h

theorem cmpB_of_ok (hp : 2 < p) (henv : EnvOk Γ env L ρ) {e : BExpr (ZMod p)} (h : OkB Γ e) : CmpB sem env L ρ e :=
  (cmp_all sem hp henv (sizeOf e + 1)).2.1 e (by omega) h

theorem cmpU_of_ok (hp : 2 < p) (henv : EnvOk Γ env L ρ) {e : UExpr (ZMod p)} (h : OkU Γ e) : CmpU sem env L ρ e :=
  (cmp_all sem hp henv (sizeOf e + 1)).2.2 e (by omega) h

end Zok
