import Verif.Model.FlattenerStmt
import Verif.Lemmas.FlatSel

/-
Flattening actions only append statements, never lower the `clash` flag and (on expressions) keep the layout.
-/

set_option linter.unusedSectionVars false

namespace Zok
variable {p : ℕ} {Z : Type} [Fact p.Prime]

/-- The action only appends, keeps the layout, and never lowers the flag. -/
def Mono {α : Type} (m : FlatM p Z α) : Prop :=
  ∀ st a st', m st = some (a, st') → (∃ o, st'.out = st.out ++ o) ∧ (st'.clash = false → st.clash = false) ∧
    st'.layout = st.layout ∧ st.next ≤ st'.next

/-- As `Mono`, but the layout may change. -/
def MonoS {α : Type} (m : FlatM p Z α) : Prop :=
  ∀ st a st', m st = some (a, st') → (∃ o, st'.out = st.out ++ o) ∧ (st'.clash = false → st.clash = false) ∧
    st.next ≤ st'.next

theorem FlatM.bind_some {α β : Type} {m : FlatM p Z α} {f : α → FlatM p Z β} {st : FlState p Z} {b : β}
    {st' : FlState p Z} (h : (m >>= f) st = some (b, st')) :
    ∃ a st1, m st = some (a, st1) ∧ f a st1 = some (b, st') := by
  have h' : (m st).bind (fun t => f t.1 t.2) = some (b, st') := h
  cases h1 : m st with
  | none => rw [h1] at h'; cases h'
  | some t => rw [h1] at h'; exact ⟨t.1, t.2, rfl, h'⟩

namespace Mono
variable {α β : Type}

theorem toS {m : FlatM p Z α} (h : Mono m) : MonoS m := fun st a st' hm =>
  let ⟨h1, h2, _, h4⟩ := h st a st' hm; ⟨h1, h2, h4⟩

theorem bind {m : FlatM p Z α} {f : α → FlatM p Z β} (h : Mono m) (hf : ∀ a, Mono (f a)) : Mono (m >>= f) := by
  intro st b st' hm
  obtain ⟨a, st1, h1, h2⟩ := FlatM.bind_some hm
  obtain ⟨⟨o1, ho1⟩, hc1, hl1, hn1⟩ := h st a st1 h1
  obtain ⟨⟨o2, ho2⟩, hc2, hl2, hn2⟩ := hf a st1 b st' h2
  exact ⟨⟨o1 ++ o2, by rw [ho2, ho1, List.append_assoc]⟩, fun h => hc1 (hc2 h), hl2.trans hl1, hn1.trans hn2⟩

theorem pure (a : α) : Mono (Pure.pure a : FlatM p Z α) := by
  intro st b st' hm
  have : some (a, st) = some (b, st') := hm
  cases this
  exact ⟨⟨[], by simp⟩, id, rfl, le_rfl⟩

theorem panic : Mono (Flt.panic : FlatM p Z α) := by intro st b st' hm; cases hm

theorem emit (s : FlatStmt (ZMod p) Z) : Mono (Flt.emit s) := by
  intro st b st' hm; cases hm; exact ⟨⟨[s], rfl⟩, id, rfl, le_rfl⟩

theorem emitAll (s : List (FlatStmt (ZMod p) Z)) : Mono (Flt.emitAll s) := by
  intro st b st' hm; cases hm; exact ⟨⟨s, rfl⟩, id, rfl, le_rfl⟩

theorem useSym : Mono (Flt.useSym : FlatM p Z Variable) := by
  intro st b st' hm; cases hm; exact ⟨⟨[], by simp⟩, id, rfl, Nat.le_succ _⟩

theorem lookup (x : ZId) : Mono (Flt.lookup x : FlatM p Z Variable) := by
  intro st b st' hm
  unfold Flt.lookup at hm
  split at hm
  · cases hm; exact ⟨⟨[], by simp⟩, id, rfl, le_rfl⟩
  · cases hm

theorem getCache (e : FlatExpr (ZMod p)) : Mono (Flt.getCache e : FlatM p Z _) := by
  intro st b st' hm; cases hm; exact ⟨⟨[], by simp⟩, id, rfl, le_rfl⟩

theorem setCache (e : FlatExpr (ZMod p)) (c) : Mono (Flt.setCache e c : FlatM p Z _) := by
  intro st b st' hm; cases hm; exact ⟨⟨[], by simp⟩, id, rfl, le_rfl⟩

theorem raise (b : Bool) : Mono (Flt.raise b : FlatM p Z _) := by
  intro st a st' hm; cases hm
  exact ⟨⟨[], by simp⟩, fun h => by simp only [Bool.or_eq_false_iff] at h; exact h.1, rfl, le_rfl⟩

theorem assert (b : Bool) : Mono (Flt.assert b : FlatM p Z _) := by
  unfold Flt.assert; split
  · exact pure _
  · exact panic

theorem unwrap (o : Option α) : Mono (Flt.unwrap o : FlatM p Z _) := by
  cases o
  · exact panic
  · exact pure _

theorem ite {b : Prop} [Decidable b] {m1 m2 : FlatM p Z α} (h1 : Mono m1) (h2 : Mono m2) :
    Mono (if b then m1 else m2) := by
  split
  · exact h1
  · exact h2

/-- Closes goals about primitive actions. -/
macro "mono1" : tactic => `(tactic| first
  | assumption | exact pure _ | exact panic | exact emit _ | exact emitAll _ | exact useSym | exact lookup _
  | exact getCache _ | exact setCache _ _ | exact raise _ | exact assert _ | exact unwrap _
  | refine bind ?_ (fun _ => ?_) | refine ite ?_ ?_ | split)

macro "monos" : tactic => `(tactic| repeat' mono1)

theorem define (e : FlatExpr (ZMod p)) : Mono (Flt.define e : FlatM p Z _) := by
  unfold Flt.define; monos

theorem defineAll (es : List (FlatExpr (ZMod p))) : Mono (Flt.defineAll es : FlatM p Z _) := by
  induction es with
  | nil => exact pure _
  | cons e es ih => exact bind (define e) fun _ => bind ih fun _ => pure _

theorem linearise (e : FlatExpr (ZMod p)) : Mono (Flt.linearise e : FlatM p Z _) := by
  unfold Flt.linearise; monos

theorem newDef (e : FlatExpr (ZMod p)) : Mono (Flt.newDef e : FlatM p Z _) := by
  unfold Flt.newDef; monos

theorem useSyms (n : ℕ) : Mono (Flt.useSyms n : FlatM p Z _) := by
  induction n with
  | zero => exact pure _
  | succ n ih => exact bind useSym fun _ => bind ih fun _ => pure _

theorem leSyms (n : ℕ) : Mono (Flt.leSyms n : FlatM p Z _) := by
  induction n with
  | zero => exact pure _
  | succ n ih => exact bind useSym fun _ => bind useSym fun _ => bind ih fun _ => pure _

theorem leLoop (l) : Mono (Flt.leLoop l : FlatM p Z _) := by
  induction l with
  | nil => exact pure _
  | cons t rest ih =>
    obtain ⟨a, b, nsr, su⟩ := t
    unfold Flt.leLoop
    cases b
    · dsimp only; monos
    · dsimp only; monos

theorem constantLeCheck (a b) : Mono (Flt.constantLeCheck a b : FlatM p Z _) := by
  unfold Flt.constantLeCheck
  refine bind (assert _) fun _ => ite (bind (defineAll _) fun _ => bind (emitAll _) fun _ => pure _)
    (bind (leSyms _) fun s => bind ?_ fun _ => leLoop _)
  monos

theorem eqCheck (a b) : Mono (Flt.eqCheck a b : FlatM p Z _) := by
  unfold Flt.eqCheck
  have := define (p := p) (Z := Z) a
  have := define (p := p) (Z := Z) b
  monos

theorem enforceLeBits (a b e) : Mono (Flt.enforceLeBits a b e : FlatM p Z _) := by
  unfold Flt.enforceLeBits
  have := constantLeCheck (p := p) (Z := Z) a b
  monos

theorem cachedBits (a b c d) : Mono (Flt.cachedBits a b c d : FlatM p Z _) := by
  unfold Flt.cachedBits; monos

theorem freshBits (a b c d) : Mono (Flt.freshBits a b c d : FlatM p Z _) := by
  unfold Flt.freshBits
  have := useSyms (p := p) (Z := Z) b
  monos

theorem getBits (a b c d) : Mono (Flt.getBits a b c d : FlatM p Z _) := by
  unfold Flt.getBits
  refine bind (assert _) fun _ => bind (assert _) fun _ => ?_
  split
  · monos
  · split
    · monos
    · refine bind (unwrap _) fun f => bind (getCache _) fun c => ?_
      split
      · exact cachedBits _ _ _ _
      · exact freshBits _ _ _ _

theorem getField (u) : Mono (Flt.getField u : FlatM p Z _) := by
  unfold Flt.getField; monos

theorem enforceConstantLe (a b c) : Mono (Flt.enforceConstantLe a b c : FlatM p Z _) := by
  unfold Flt.enforceConstantLe
  exact bind (getBits _ _ _ _) fun _ => enforceLeBits _ _ _

theorem enforceConstantLt (a b c) : Mono (Flt.enforceConstantLt a b c : FlatM p Z _) := by
  unfold Flt.enforceConstantLt
  exact ite (emit _) (enforceConstantLe _ _ _)

theorem constantFieldLe (a b) : Mono (Flt.constantFieldLe a b : FlatM p Z _) := by
  unfold Flt.constantFieldLe
  exact bind (getBits _ _ _ _) fun _ => bind (enforceLeBits _ _ _) fun _ => bind (constantLeCheck _ _) fun _ => eqCheck _ _

theorem constantLt (a b) : Mono (Flt.constantLt a b : FlatM p Z _) := by
  unfold Flt.constantLt
  exact ite (pure _) (constantFieldLe _ _)

theorem ltCheck (a b w) : Mono (Flt.ltCheck a b w : FlatM p Z _) := by
  unfold Flt.ltCheck
  split
  · exact constantLt _ _
  · exact constantLt _ _
  · unfold Flt.ltDynamic
    refine bind (define _) fun _ => bind (define _) fun _ => bind (getBits _ _ _ _) fun _ => ?_
    split
    · exact pure _
    · exact panic

theorem leCheck (a b w) : Mono (Flt.leCheck a b w : FlatM p Z _) := by
  unfold Flt.leCheck
  exact bind (eqCheck _ _) fun _ => bind (ltCheck _ _ _) fun _ => pure _

theorem enforceSafe (a b) : Mono (Flt.enforceSafe a b : FlatM p Z _) := by
  unfold Flt.enforceSafe
  exact bind (enforceConstantLt _ _ _) fun _ => enforceConstantLt _ _ _

theorem fieldLtCheck (a b) : Mono (Flt.fieldLtCheck a b : FlatM p Z _) := by
  unfold Flt.fieldLtCheck
  split
  · exact constantLt _ _
  · exact constantLt _ _
  · exact bind (enforceSafe _ _) fun _ => ltCheck _ _ _

theorem conditional {c t e : FlatM p Z (FlatExpr (ZMod p))} (hc : Mono c) (ht : Mono t) (he : Mono e) :
    Mono (Flt.conditional c t e) := by
  unfold Flt.conditional
  exact bind hc fun _ => bind (newDef _) fun _ => bind ht fun _ => bind he fun _ => bind (newDef _) fun _ =>
    bind (newDef _) fun _ => bind (newDef _) fun _ => bind (newDef _) fun _ => bind (newDef _) fun _ => pure _

theorem selFold (l a b) : Mono (Flt.selFold l a b : FlatM p Z _) := by
  induction l generalizing a b with
  | nil => exact pure _
  | cons t l ih => exact bind (newDef _) fun _ => ih _ _

theorem selFinish (l) : Mono (Flt.selFinish l : FlatM p Z _) := by
  unfold Flt.selFinish
  exact bind (selFold _ _ _) fun _ => bind (emit _) fun _ => pure _

theorem uTail (a b c d) : Mono (Flt.uTail a b c d : FlatM p Z _) := by
  unfold Flt.uTail
  exact ite (bind (getBits _ _ _ _) fun _ => ite (pure _) (bind (getField _) fun _ => pure _)) (pure _)

theorem readInfo (m) : Mono (Flt.readInfo m : FlatM p Z _) := by
  unfold Flt.readInfo; monos

theorem assertReduced (m) : Mono (Flt.assertReduced m : FlatM p Z _) := by
  unfold Flt.assertReduced
  exact bind (readInfo _) fun _ => assert _

theorem uintEqCheck {a b} {x y : FlatM p Z (FlatU p)} (hx : Mono x) (hy : Mono y) :
    Mono (Flt.uintEqCheck a x b y) := by
  unfold Flt.uintEqCheck
  exact bind (assertReduced _) fun _ => bind (assertReduced _) fun _ => bind hx fun _ => bind (getField _) fun _ =>
    bind hy fun _ => bind (getField _) fun _ => eqCheck _ _

theorem uintLtCheck {w a b} {x y : FlatM p Z (FlatU p)} (hx : Mono x) (hy : Mono y) :
    Mono (Flt.uintLtCheck w a x b y) := by
  unfold Flt.uintLtCheck
  exact bind (assertReduced _) fun _ => bind (assertReduced _) fun _ => bind hx fun _ => bind (getField _) fun _ =>
    bind hy fun _ => bind (getField _) fun _ => ltCheck _ _ _

theorem selCond {m} {x : FlatM p Z (FlatU p)} (hx : Mono x) (j) : Mono (Flt.selCond m x j) := by
  unfold Flt.selCond
  exact uintEqCheck (uTail _ _ _ _) hx

theorem powSquares (l a) : Mono (Flt.powSquares l a : FlatM p Z _) := by
  induction l generalizing a with
  | nil => exact pure _
  | cons t l ih => exact bind (newDef _) fun _ => bind (ih _) fun _ => pure _

theorem powFold (l a) : Mono (Flt.powFold l a : FlatM p Z _) := by
  induction l generalizing a with
  | nil => exact pure _
  | cons t l ih =>
    obtain ⟨b, e⟩ := t
    cases b
    · exact ih _
    · exact bind (newDef _) fun _ => ih _

theorem powFlat (a n) : Mono (Flt.powFlat a n : FlatM p Z _) := by
  unfold Flt.powFlat
  refine bind (assert _) fun _ => ?_
  dsimp only
  split
  · exact pure _
  · exact bind (powSquares _ _) fun _ => powFold _ _

theorem divFlat (a b) : Mono (Flt.divFlat a b : FlatM p Z _) := by
  unfold Flt.divFlat
  exact bind (newDef _) fun _ => bind (newDef _) fun _ => bind useSym fun _ => bind (emit _) fun _ =>
    bind (emit _) fun _ => pure _

theorem euclid (w a b) : Mono (Flt.euclid w a b : FlatM p Z _) := by
  unfold Flt.euclid
  exact bind (linearise _) fun _ => bind (linearise _) fun _ => bind useSym fun _ => bind useSym fun _ =>
    bind (emit _) fun _ => bind (getBits _ _ _ _) fun _ => bind (getBits _ _ _ _) fun _ =>
    bind (getBits _ _ _ _) fun _ => bind (emit _) fun _ => pure _

theorem xorBit (a b) : Mono (Flt.xorBit a b : FlatM p Z _) := by
  have : ∀ n e, Mono (Flt.xorBit.xorConst n e : FlatM p Z _) := by
    intro n e
    unfold Flt.xorBit.xorConst
    exact ite (bind (define _) fun _ => pure _) (ite (bind (define _) fun _ => pure _) panic)
  unfold Flt.xorBit
  split
  · exact this _ _
  · exact this _ _
  · monos

theorem andBit (a b) : Mono (Flt.andBit a b : FlatM p Z _) := by
  have : ∀ n e, Mono (Flt.andBit.andConst n e : FlatM p Z _) := by
    intro n e
    unfold Flt.andBit.andConst
    exact ite (pure _) (ite (pure _) panic)
  unfold Flt.andBit
  split
  · exact this _ _
  · exact this _ _
  · exact bind (define _) fun _ => pure _

theorem orBit (a b) : Mono (Flt.orBit a b : FlatM p Z _) := by
  have : ∀ n e, Mono (Flt.orBit.orConst n e : FlatM p Z _) := by
    intro n e
    unfold Flt.orBit.orConst
    exact ite (bind (define _) fun _ => pure _) (ite (pure _) panic)
  unfold Flt.orBit
  split
  · exact this _ _
  · exact this _ _
  · monos

theorem notBit (a) : Mono (Flt.notBit a : FlatM p Z _) := by
  unfold Flt.notBit
  exact bind (define _) fun _ => pure _

theorem chBit (a b c) : Mono (Flt.chBit a b c : FlatM p Z _) := by unfold Flt.chBit; monos
theorem majBit (a b c) : Mono (Flt.majBit a b c : FlatM p Z _) := by unfold Flt.majBit; monos
theorem boolOr (a b) : Mono (Flt.boolOr a b : FlatM p Z _) := by unfold Flt.boolOr; monos

theorem zipBits {f : FlatExpr (ZMod p) → FlatExpr (ZMod p) → FlatM p Z (FlatExpr (ZMod p))} (hf : ∀ a b, Mono (f a b))
    (as bs) : Mono (Flt.zipBits f as bs) := by
  induction as generalizing bs with
  | nil => exact pure _
  | cons a as ih =>
    cases bs with
    | nil => exact pure _
    | cons b bs => exact bind (hf a b) fun _ => bind (ih bs) fun _ => pure _

theorem zipBits3 {f : FlatExpr (ZMod p) → FlatExpr (ZMod p) → FlatExpr (ZMod p) → FlatM p Z (FlatExpr (ZMod p))}
    (hf : ∀ a b c, Mono (f a b c)) (as bs cs) : Mono (Flt.zipBits3 f as bs cs) := by
  induction as generalizing bs cs with
  | nil => exact pure _
  | cons a as ih =>
    cases bs with
    | nil => exact pure _
    | cons b bs =>
      cases cs with
      | nil => exact pure _
      | cons c cs => exact bind (hf a b c) fun _ => bind (ih bs cs) fun _ => pure _

theorem mapBits {f : FlatExpr (ZMod p) → FlatM p Z (FlatExpr (ZMod p))} (hf : ∀ a, Mono (f a)) (as) :
    Mono (Flt.mapBits f as) := by
  induction as with
  | nil => exact pure _
  | cons a as ih => exact bind (hf a) fun _ => bind ih fun _ => pure _

theorem defaultXor {l r : FlatM p Z (FlatU p)} (hl : Mono l) (hr : Mono r) : Mono (Flt.defaultXor l r) := by
  unfold Flt.defaultXor
  exact bind hl fun _ => bind hr fun _ => bind (unwrap _) fun _ => bind (unwrap _) fun _ =>
    bind (zipBits xorBit _ _) fun _ => pure _

theorem threeBits {f : FlatExpr (ZMod p) → FlatExpr (ZMod p) → FlatExpr (ZMod p) → FlatM p Z (FlatExpr (ZMod p))}
    (hf : ∀ a b c, Mono (f a b c)) {a b c : FlatM p Z (FlatU p)} (ha : Mono a) (hb : Mono b) (hc : Mono c) :
    Mono (Flt.threeBits f a b c) := by
  unfold Flt.threeBits
  exact bind ha fun _ => bind hb fun _ => bind hc fun _ => bind (unwrap _) fun _ => bind (unwrap _) fun _ =>
    bind (unwrap _) fun _ => bind (zipBits3 hf _ _ _) fun _ => pure _

theorem twoFields {l r : FlatM p Z (FlatU p)} (hl : Mono l) (hr : Mono r) : Mono (Flt.twoFields l r) := by
  unfold Flt.twoFields
  exact bind hl fun _ => bind (getField _) fun _ => bind hr fun _ => bind (getField _) fun _ =>
    bind (linearise _) fun _ => bind (linearise _) fun _ => pure _

theorem twoLinear {l r : FlatM p Z (FlatExpr (ZMod p))} (hl : Mono l) (hr : Mono r) : Mono (Flt.twoLinear l r) := by
  unfold Flt.twoLinear
  exact bind hl fun _ => bind hr fun _ => bind (linearise _) fun _ => bind (linearise _) fun _ => pure _

theorem bitwise {w} {f : FlatExpr (ZMod p) → FlatExpr (ZMod p) → FlatM p Z (FlatExpr (ZMod p))} (hf : ∀ a b, Mono (f a b))
    {l r : FlatM p Z (FlatU p)} (hl : Mono l) (hr : Mono r) : Mono (Flt.bitwise w f l r) := by
  unfold Flt.bitwise
  exact bind hl fun _ => bind hr fun _ => bind (unwrap _) fun _ => bind (unwrap _) fun _ => bind (assert _) fun _ =>
    bind (assert _) fun _ => bind (zipBits hf _ _) fun _ => pure _

theorem selGen {α : Type} {f : α → FlatM p Z (FlatExpr (ZMod p))} (l : List α) (hf : ∀ a ∈ l, Mono (f a))
    {c : ℕ → FlatM p Z (FlatExpr (ZMod p))} (hc : ∀ i, Mono (c i)) (i : ℕ) : Mono (Zok.selGen f l i c) := by
  induction l generalizing i with
  | nil => exact pure _
  | cons a l ih =>
    exact bind (hc i) fun _ => bind (hf a (by simp)) fun _ => bind (ih (fun b hb => hf b (by simp [hb])) (i + 1)) fun _ =>
      pure _

theorem all (n : ℕ) : (∀ e : FExpr (ZMod p), sizeOf e < n → Mono (Flt.flattenF e : FlatM p Z _)) ∧
    (∀ e : BExpr (ZMod p), sizeOf e < n → Mono (Flt.flattenB e : FlatM p Z _)) ∧
    (∀ e : UExpr (ZMod p), sizeOf e < n → Mono (Flt.flattenU e : FlatM p Z _)) := by
  induction n with
  | zero => exact ⟨fun _ h => absurd h (by omega), fun _ h => absurd h (by omega), fun _ h => absurd h (by omega)⟩
  | succ n ih =>
    obtain ⟨ihF, ihB, ihU⟩ := ih
    have hmem : ∀ {α : Type} [SizeOf α] (e : α) (es : List α), e ∈ es → sizeOf e < sizeOf es :=
      fun e es h => List.sizeOf_lt_of_mem h
    refine ⟨?_, ?_, ?_⟩
    · intro e hn
      cases e <;> rw [Flt.flattenF] <;> simp at hn
      case value => exact pure _
      case ident => exact bind (lookup _) fun _ => pure _
      case select es i =>
        rw [flattenSelF_eq]
        exact bind (selGen es (fun e he => ihF e (by have := hmem e es he; omega)) (selCond (ihU i (by omega))) 0) fun _ =>
          bind (selFinish _) fun _ => getField _
      case add l r => exact bind (twoLinear (ihF l (by omega)) (ihF r (by omega))) fun _ => pure _
      case sub l r => exact bind (twoLinear (ihF l (by omega)) (ihF r (by omega))) fun _ => pure _
      case mult l r => exact bind (twoLinear (ihF l (by omega)) (ihF r (by omega))) fun _ => pure _
      case div l r => exact bind (ihF l (by omega)) fun _ => bind (ihF r (by omega)) fun _ => divFlat _ _
      case pow b e =>
        split
        · exact bind (ihF b (by omega)) fun _ => powFlat _ _
        · exact panic
      case cond c t e =>
        exact bind (conditional (ihB c (by omega)) (ihF t (by omega)) (ihF e (by omega))) fun _ => getField _
      all_goals exact panic
    · intro e hn
      cases e <;> rw [Flt.flattenB] <;> simp at hn
      case value => exact pure _
      case ident => exact bind (lookup _) fun _ => pure _
      case select es i =>
        rw [flattenSelB_eq]
        exact bind (selGen es (fun e he => ihB e (by have := hmem e es he; omega)) (selCond (ihU i (by omega))) 0) fun _ =>
          bind (selFinish _) fun _ => getField _
      case fieldLt l r => exact bind (ihF l (by omega)) fun _ => bind (ihF r (by omega)) fun _ => fieldLtCheck _ _
      case fieldLe l r =>
        exact bind (ihF l (by omega)) fun _ => bind (ihF r (by omega)) fun _ => bind (fieldLtCheck _ _) fun _ =>
          bind (ihF l (by omega)) fun _ => bind (ihF r (by omega)) fun _ => bind (eqCheck _ _) fun _ => pure _
      case fieldEq l r => exact bind (ihF l (by omega)) fun _ => bind (ihF r (by omega)) fun _ => eqCheck _ _
      case uintLt l r => exact uintLtCheck (ihU l (by omega)) (ihU r (by omega))
      case uintLe l r =>
        exact bind (uintLtCheck (ihU l (by omega)) (ihU r (by omega))) fun _ =>
          bind (uintEqCheck (ihU l (by omega)) (ihU r (by omega))) fun _ => pure _
      case uintEq l r => exact uintEqCheck (ihU l (by omega)) (ihU r (by omega))
      case boolEq l r =>
        exact bind (ihB l (by omega)) fun _ => bind (ihB r (by omega)) fun _ => bind (newDef _) fun _ => pure _
      case or l r => exact bind (ihB l (by omega)) fun _ => bind (ihB r (by omega)) fun _ => boolOr _ _
      case and l r =>
        exact bind (ihB l (by omega)) fun _ => bind (ihB r (by omega)) fun _ => bind useSym fun _ =>
          bind (assert _) fun _ => bind (emit _) fun _ => pure _
      case not e => exact bind (ihB e (by omega)) fun _ => pure _
      case cond c t e =>
        exact bind (conditional (ihB c (by omega)) (ihB t (by omega)) (ihB e (by omega))) fun _ => getField _
    · rintro ⟨w, m, i⟩ hn
      simp at hn
      rw [Flt.flattenU]
      refine bind (readInfo _) fun _ => bind ?_ fun _ => uTail _ _ _ _
      cases i
      case xor l r =>
        simp at hn
        refine flattenUI_xor_cases w l r (fun m => Mono m) (fun o m h => bind (unwrap o) fun _ => h) ?_ ?_
          (defaultXor (ihU l (by omega)) (ihU r (by omega)))
        · rintro wl ml a b wr mr wa ma c rfl rfl
          simp at hn
          exact threeBits chBit (ihU a (by omega)) (ihU b (by omega)) (ihU c (by omega))
        · rintro wl ml w0 m0 a b w1 m1 c wr mr rfl rfl
          simp at hn
          exact threeBits majBit (ihU a (by omega)) (ihU b (by omega)) (ihU c (by omega))
      all_goals (rw [Flt.flattenUI]; simp at hn)
      case value => exact pure _
      case ident =>
        refine bind (lookup _) fun _ => bind (getCache _) fun _ => ?_
        split
        · exact pure _
        · exact bind (assert _) fun _ => pure _
      case select es i =>
        rw [flattenSelU_eq]
        exact bind (selGen es (fun e he => bind (ihU e (by have := hmem e es he; omega)) fun _ => getField _)
          (selCond (ihU i (by omega))) 0) fun _ => selFinish _
      case add l r => exact bind (twoFields (ihU l (by omega)) (ihU r (by omega))) fun _ => pure _
      case sub l r => exact bind (unwrap _) fun _ => bind (twoFields (ihU l (by omega)) (ihU r (by omega))) fun _ => pure _
      case mult l r =>
        exact bind (twoFields (ihU l (by omega)) (ihU r (by omega))) fun _ => bind (newDef _) fun _ => pure _
      case div l r =>
        exact bind (ihU l (by omega)) fun _ => bind (getField _) fun _ => bind (ihU r (by omega)) fun _ =>
          bind (getField _) fun _ => bind (euclid _ _ _) fun _ => pure _
      case rem l r =>
        exact bind (ihU l (by omega)) fun _ => bind (getField _) fun _ => bind (ihU r (by omega)) fun _ =>
          bind (getField _) fun _ => bind (euclid _ _ _) fun _ => pure _
      case and l r => exact bitwise andBit (ihU l (by omega)) (ihU r (by omega))
      case or l r => exact bitwise orBit (ihU l (by omega)) (ihU r (by omega))
      case leftShift e b =>
        split
        · exact bind (ihU e (by omega)) fun _ => bind (unwrap _) fun _ => bind (assert _) fun _ => pure _
        · exact panic
      case rightShift e b =>
        split
        · exact bind (ihU e (by omega)) fun _ => bind (unwrap _) fun _ => bind (assert _) fun _ => pure _
        · exact panic
      case not e =>
        exact bind (ihU e (by omega)) fun _ => bind (unwrap _) fun _ => bind (assert _) fun _ =>
          bind (mapBits notBit _) fun _ => pure _
      case cond c t e =>
        exact conditional (ihB c (by omega)) (bind (ihU t (by omega)) fun _ => getField _)
          (bind (ihU e (by omega)) fun _ => getField _)

theorem flattenF (e : FExpr (ZMod p)) : Mono (Flt.flattenF e : FlatM p Z _) := (all (sizeOf e + 1)).1 e (by omega)
theorem flattenB (e : BExpr (ZMod p)) : Mono (Flt.flattenB e : FlatM p Z _) := (all (sizeOf e + 1)).2.1 e (by omega)
theorem flattenU (e : UExpr (ZMod p)) : Mono (Flt.flattenU e : FlatM p Z _) := (all (sizeOf e + 1)).2.2 e (by omega)

theorem flattenZ (e : ZExpr (ZMod p)) : Mono (Flt.flattenZ e : FlatM p Z _) := by
  cases e <;> unfold Flt.flattenZ
  · exact bind (flattenF _) fun _ => pure _
  · exact bind (flattenB _) fun _ => pure _
  · exact flattenU _

theorem flattenZs (es : List (ZExpr (ZMod p))) : Mono (Flt.flattenZs es : FlatM p Z _) := by
  induction es with
  | nil => exact pure _
  | cons e es ih => exact bind (flattenZ e) fun _ => bind (getField _) fun _ => bind ih fun _ => pure _

theorem assertArg (e : ZExpr (ZMod p)) : Mono (Flt.assertArg e : FlatM p Z _) := by
  unfold Flt.assertArg; monos

theorem flattenArgs (es : List (ZExpr (ZMod p))) : Mono (Flt.flattenArgs es : FlatM p Z _) := by
  induction es with
  | nil => exact pure _
  | cons e es ih => exact bind (assertArg e) fun _ => bind (flattenZ e) fun _ => bind ih fun _ => pure _

theorem getFields (us : List (FlatU p)) : Mono (Flt.getFields us : FlatM p Z _) := by
  induction us with
  | nil => exact pure _
  | cons e es ih => exact bind (getField e) fun _ => bind ih fun _ => pure _

theorem constBool (e) : Mono (Flt.constBool e : FlatM p Z _) := by
  unfold Flt.constBool; monos

theorem constBools (es) : Mono (Flt.constBools es : FlatM p Z _) := by
  induction es with
  | nil => exact pure _
  | cons e es ih => exact bind (constBool e) fun _ => bind ih fun _ => pure _

theorem unpackCall (n us) : Mono (Flt.unpackCall n us : FlatM p Z _) := by
  unfold Flt.unpackCall
  refine bind (getFields _) fun _ => bind ?_ fun _ => bind (useSyms _) fun _ => bind (emit _) fun _ =>
    bind (emitAll _) fun _ => bind (emit _) fun _ => bind (useSyms _) fun _ => bind (emitAll _) fun _ => pure _
  split
  · exact define _
  · exact panic

theorem embedCall (e g a) : Mono (Flt.embedCall e g a : FlatM p Z _) := by
  unfold Flt.embedCall
  refine bind (flattenArgs _) fun _ => ?_
  split
  · monos
  · monos
  · exact bind (getFields _) fun _ => bind (assert _) fun _ => pure _
  · exact bind (unwrap _) fun _ => bind (assert _) fun _ => bind (getFields _) fun _ => bind (defineAll _) fun _ =>
      bind (getFields _) fun _ => bind (constBools _) fun _ => bind (constantLeCheck _ _) fun _ =>
      bind (eqCheck _ _) fun _ => pure _
  · exact bind (unwrap _) fun _ => unpackCall _ _

theorem equalityAssertion (a b e) : Mono (Flt.equalityAssertion a b e : FlatM p Z _) := by
  have h : ∀ l r z, Mono (Flt.equalityAssertion.product e l r z : FlatM p Z _) := fun l r z =>
    bind (linearise _) fun _ => bind (linearise _) fun _ => bind (linearise _) fun _ => emit _
  unfold Flt.equalityAssertion
  split
  · exact h _ _ _
  · exact h _ _ _
  · exact bind (linearise _) fun _ => bind (linearise _) fun _ => emit _

theorem notZeroAssertion (x) : Mono (Flt.notZeroAssertion x : FlatM p Z _) := by
  unfold Flt.notZeroAssertion
  exact bind (define _) fun _ => bind useSym fun _ => bind (emit _) fun _ => emit _

theorem naiveAssertion (e err) : Mono (Flt.naiveAssertion e err : FlatM p Z _) := by
  unfold Flt.naiveAssertion
  exact bind (flattenB _) fun _ => ite (emit _) (emit _)

theorem cmpAssertion {m : ZMod p} {c : FlatExpr (ZMod p) → ZMod p → RuntimeError → FlatM p Z Unit}
    {d : FlatExpr (ZMod p) → FlatExpr (ZMod p) → FlatM p Z (FlatExpr (ZMod p))} (hc : ∀ a b e, Mono (c a b e))
    (hd : ∀ a b, Mono (d a b)) (a b e) : Mono (Flt.cmpAssertion m c d a b e) := by
  unfold Flt.cmpAssertion
  split
  · exact hc _ _ _
  · exact hc _ _ _
  · exact bind (hd _ _) fun _ => emit _

theorem twoUFields (l r) : Mono (Flt.twoUFields l r : FlatM p Z _) := by
  unfold Flt.twoUFields
  exact bind (flattenU _) fun _ => bind (getField _) fun _ => bind (flattenU _) fun _ => bind (getField _) fun _ => pure _

theorem assertion (e err) : Mono (Flt.assertion e err : FlatM p Z _) := by
  unfold Flt.assertion
  split
  · exact bind (flattenF _) fun _ => bind (flattenF _) fun _ => equalityAssertion _ _ _
  · exact bind (flattenF _) fun _ => bind (flattenF _) fun _ => cmpAssertion enforceConstantLt
      (fun _ _ => bind (enforceSafe _ _) fun _ => ltCheck _ _ _) _ _ _
  · exact bind (flattenF _) fun _ => bind (flattenF _) fun _ => cmpAssertion enforceConstantLe
      (fun _ _ => bind (enforceSafe _ _) fun _ => leCheck _ _ _) _ _ _
  · exact bind (twoUFields _ _) fun _ => cmpAssertion enforceConstantLt (fun _ _ => ltCheck _ _ _) _ _ _
  · exact bind (twoUFields _ _) fun _ => cmpAssertion enforceConstantLe (fun _ _ => leCheck _ _ _) _ _ _
  · exact bind (twoUFields _ _) fun _ => equalityAssertion _ _ _
  · exact bind (flattenB _) fun _ => bind (flattenB _) fun _ => equalityAssertion _ _ _
  · split
    · exact bind (flattenU _) fun _ => bind (getField _) fun _ => notZeroAssertion _
    · exact bind (flattenU _) fun _ => bind (getField _) fun _ => notZeroAssertion _
    · exact naiveAssertion _ _
  · exact ite (bind (flattenF _) fun _ => notZeroAssertion _)
      (ite (bind (flattenF _) fun _ => notZeroAssertion _) (naiveAssertion _ _))
  · exact naiveAssertion _ _

theorem assertions (err es) : Mono (Flt.assertions err es : FlatM p Z _) := by
  induction es with
  | nil => exact pure _
  | cons e es ih => exact bind (assertion e err) fun _ => ih

theorem lookups (xs) : Mono (Flt.lookups xs : FlatM p Z _) := by
  induction xs with
  | nil => exact pure _
  | cons e es ih => exact bind (lookup e) fun _ => bind ih fun _ => pure _

theorem flattenLog (es) : Mono (Flt.flattenLog es : FlatM p Z _) := by
  induction es with
  | nil => exact pure _
  | cons e es ih => exact bind (flattenZs e) fun _ => bind ih fun _ => pure _

end Mono

namespace MonoS
variable {α β : Type}

theorem bind {m : FlatM p Z α} {f : α → FlatM p Z β} (h : MonoS m) (hf : ∀ a, MonoS (f a)) : MonoS (m >>= f) := by
  intro st b st' hm
  obtain ⟨a, st1, h1, h2⟩ := FlatM.bind_some hm
  obtain ⟨⟨o1, ho1⟩, hc1, hn1⟩ := h st a st1 h1
  obtain ⟨⟨o2, ho2⟩, hc2, hn2⟩ := hf a st1 b st' h2
  exact ⟨⟨o1 ++ o2, by rw [ho2, ho1, List.append_assoc]⟩, fun h => hc1 (hc2 h), hn1.trans hn2⟩

theorem useVariable (x) : MonoS (Flt.useVariable x : FlatM p Z _) := by
  intro st b st' hm; cases hm; exact ⟨⟨[], by simp⟩, id, Nat.le_succ _⟩

theorem useExisting (x v) : MonoS (Flt.useExisting x v : FlatM p Z _) := by
  intro st b st' hm; cases hm; exact ⟨⟨[], by simp⟩, id, le_rfl⟩

theorem bindVar (x e) : MonoS (Flt.bindVar x e : FlatM p Z _) := by
  unfold Flt.bindVar
  split
  · exact bind (useExisting _ _) fun _ => (Mono.pure _).toS
  · exact bind (useVariable _) fun _ => bind (Mono.emit _).toS fun _ => (Mono.pure _).toS

theorem bindVars (xs us) : MonoS (Flt.bindVars xs us : FlatM p Z _) := by
  induction xs generalizing us with
  | nil => exact (Mono.pure _).toS
  | cons x xs ih =>
    cases us with
    | nil => exact (Mono.pure _).toS
    | cons u us => exact bind (Mono.getField _).toS fun _ => bind (bindVar _ _) fun _ => bind (ih us) fun _ => (Mono.pure _).toS

theorem useVariables (xs) : MonoS (Flt.useVariables xs : FlatM p Z _) := by
  induction xs with
  | nil => exact (Mono.pure _).toS
  | cons e es ih => exact bind (useVariable e) fun _ => bind ih fun _ => (Mono.pure _).toS

theorem flattenAsm (s) : MonoS (Flt.flattenAsm s : FlatM p Z _) := by
  unfold Flt.flattenAsm
  split
  · exact bind (Mono.lookups _).toS fun _ => bind (useVariables _) fun _ => (Mono.emit _).toS
  · exact bind (Mono.flattenF _).toS fun _ => bind (Mono.flattenF _).toS fun _ => (Mono.emit _).toS

theorem flattenAsms (ss) : MonoS (Flt.flattenAsms ss : FlatM p Z _) := by
  induction ss with
  | nil => exact (Mono.pure _).toS
  | cons e es ih => exact bind (flattenAsm e) fun _ => ih

theorem inBlock {m : FlatM p Z Unit} (h : MonoS m) : MonoS (Flt.inBlock m) := by
  intro st b st' hm
  unfold Flt.inBlock at hm
  cases h1 : m { st with out := [] } with
  | none => rw [h1] at hm; cases hm
  | some t =>
    rw [h1] at hm
    cases hm
    obtain ⟨_, h2, h3⟩ := h _ _ _ h1
    exact ⟨⟨_, rfl⟩, h2, h3⟩

theorem definition (x e) : MonoS (Flt.flattenStmt (.definition x e) : FlatM p Z _) := by
  rw [Flt.flattenStmt]
  refine bind (Mono.flattenZ _).toS fun _ => bind (Mono.getField _).toS fun _ => bind (bindVar _ _) fun _ => ?_
  split
  · exact (Mono.setCache _ _).toS
  · exact (Mono.pure _).toS

theorem multiDef (xs e g a) : MonoS (Flt.flattenStmt (.multiDef xs e g a) : FlatM p Z _) := by
  rw [Flt.flattenStmt]
  refine bind (Mono.embedCall _ _ _).toS fun _ => bind (Mono.assert _).toS fun _ => bind (bindVars _ _) fun _ => ?_
  split
  · exact (Mono.bind (Mono.flattenZs _) fun _ => Mono.bind (Mono.unwrap _) fun _ => Mono.setCache _ _).toS
  · exact (Mono.pure _).toS

mutual
theorem flattenStmt : ∀ s, MonoS (Flt.flattenStmt s : FlatM p Z _)
  | .ret es => by
    rw [Flt.flattenStmt]
    exact (Mono.bind (Mono.flattenZs _) fun _ => Mono.emitAll _).toS
  | .assembly ss => by
    rw [Flt.flattenStmt]
    exact inBlock (flattenAsms _)
  | .ifElse c t e => by
    rw [Flt.flattenStmt]
    exact bind (Mono.flattenB _).toS fun _ => bind (Mono.newDef _).toS fun _ => bind (flattenStmts t) fun _ => flattenStmts e
  | .definition x e => definition x e
  | .assertion e err => by
    rw [Flt.flattenStmt]
    exact (Mono.assertions _ _).toS
  | .multiDef xs e g a => multiDef xs e g a
  | .log es => by
    rw [Flt.flattenStmt]
    exact (Mono.bind (Mono.flattenLog _) fun _ => Mono.emit _).toS
theorem flattenStmts : ∀ ss, MonoS (Flt.flattenStmts ss : FlatM p Z _)
  | [] => (Mono.pure _).toS
  | s :: ss => by
    rw [Flt.flattenStmts]
    exact bind (flattenStmt s) fun _ => flattenStmts ss
end

end MonoS
end Zok
