import Verif.Spec.NoTrunc
import Verif.Lemmas.FlatMono
import Verif.Model.Compile
import Verif.Lemmas.Vars

/-
Which statements the flattener emits, and when it cannot confuse decompositions: with `L`, no blocks are emitted (there
are no assembly blocks); with `T`, all decompositions are whole, and so no cache entry is used for a request that it cannot
answer.
-/

set_option linter.unusedSectionVars false
set_option linter.unusedSimpArgs false

namespace Zok
variable {p : ℕ} {Z : Type} [Fact p.Prime] {L T : Prop}

/-- The statement is not a block. -/
def FlatStmt.NotBlock : FlatStmt (ZMod p) Z → Prop
  | .block _ => False
  | _ => True

/-- The invariant. -/
structure PInv (L T : Prop) (st : FlState p Z) : Prop where
  leaf : L → ∀ s ∈ st.out, s.NotBlock
  clash : T → st.clash = false
  exact : T → ∀ f c, st.cache f = some c → (∀ x, f ≠ .value x) → c.exact = true

/-- The action preserves the invariant. -/
def Pre (L T : Prop) {α : Type} (m : FlatM p Z α) : Prop :=
  ∀ st a st', m st = some (a, st') → PInv L T st → PInv L T st'

namespace Pre
variable {α β : Type}

theorem bind {m : FlatM p Z α} {f : α → FlatM p Z β} (h : Pre L T m) (hf : ∀ a, Pre L T (f a)) : Pre L T (m >>= f) := by
  intro st b st' hm hi
  obtain ⟨a, st1, h1, h2⟩ := FlatM.bind_some hm
  exact hf a st1 b st' h2 (h st a st1 h1 hi)

theorem pure (a : α) : Pre L T (Pure.pure a : FlatM p Z α) := by
  intro st b st' hm hi
  have : some (a, st) = some (b, st') := hm
  cases this
  exact hi

theorem panic : Pre L T (Flt.panic : FlatM p Z α) := by intro st b st' hm; cases hm

theorem emit (s : FlatStmt (ZMod p) Z) (hs : s.NotBlock := by trivial) : Pre L T (Flt.emit s) := by
  intro st b st' hm hi
  cases hm
  refine ⟨fun hL u hu => ?_, hi.clash, hi.exact⟩
  rcases List.mem_append.1 hu with h | h
  · exact hi.leaf hL u h
  · rw [List.mem_singleton.1 h]; exact hs

theorem emitAll (s : List (FlatStmt (ZMod p) Z)) (hs : ∀ u ∈ s, u.NotBlock := by
    intro u hu; obtain ⟨_, _, rfl⟩ := List.mem_map.1 hu; trivial) : Pre L T (Flt.emitAll s) := by
  intro st b st' hm hi
  cases hm
  refine ⟨fun hL u hu => ?_, hi.clash, hi.exact⟩
  rcases List.mem_append.1 hu with h | h
  · exact hi.leaf hL u h
  · exact hs u h

theorem useSym : Pre L T (Flt.useSym : FlatM p Z Variable) := by
  intro st b st' hm hi; cases hm; exact ⟨hi.leaf, hi.clash, hi.exact⟩

theorem lookup (x : ZId) : Pre L T (Flt.lookup x : FlatM p Z Variable) := by
  intro st b st' hm hi
  unfold Flt.lookup at hm
  split at hm
  · cases hm; exact hi
  · cases hm

theorem getCache (e : FlatExpr (ZMod p)) : Pre L T (Flt.getCache e : FlatM p Z _) := by
  intro st b st' hm hi; cases hm; exact hi

theorem setCache (e : FlatExpr (ZMod p)) (c) (h : T → (∀ x, e ≠ .value x) → c.exact = true) :
    Pre L T (Flt.setCache e c : FlatM p Z _) := by
  intro st b st' hm hi; cases hm
  refine ⟨hi.leaf, hi.clash, fun hT f c' hf hx => ?_⟩
  dsimp only at hf
  split at hf
  · rename_i he; cases hf; exact h hT (by rw [← he]; exact hx)
  · exact hi.exact hT f c' hf hx

theorem raise (b : Bool) (h : T → b = false) : Pre L T (Flt.raise b : FlatM p Z _) := by
  intro st a st' hm hi; cases hm
  exact ⟨hi.leaf, fun hT => by simp [hi.clash hT, h hT], hi.exact⟩

theorem assert (b : Bool) : Pre L T (Flt.assert b : FlatM p Z _) := by
  unfold Flt.assert; split
  · exact pure _
  · exact panic

theorem unwrap (o : Option α) : Pre L T (Flt.unwrap o : FlatM p Z _) := by
  cases o
  · exact panic
  · exact pure _

theorem ite {b : Prop} [Decidable b] {m1 m2 : FlatM p Z α} (h1 : Pre L T m1) (h2 : Pre L T m2) :
    Pre L T (if b then m1 else m2) := by
  split
  · exact h1
  · exact h2

/-- Closes goals about primitive actions. -/
macro "pre1" : tactic => `(tactic| first
  | assumption | exact pure _ | exact panic | exact emit _ | exact emitAll _ | exact useSym | exact lookup _
  | exact getCache _ | exact assert _ | exact unwrap _
  | refine bind ?_ (fun _ => ?_) | refine ite ?_ ?_ | split)

macro "pres" : tactic => `(tactic| repeat' pre1)

theorem define (e : FlatExpr (ZMod p)) : Pre L T (Flt.define e : FlatM p Z _) := by
  unfold Flt.define; pres

theorem defineAll (es : List (FlatExpr (ZMod p))) : Pre L T (Flt.defineAll es : FlatM p Z _) := by
  induction es with
  | nil => exact pure _
  | cons e es ih => exact bind (define e) fun _ => bind ih fun _ => pure _

theorem linearise (e : FlatExpr (ZMod p)) : Pre L T (Flt.linearise e : FlatM p Z _) := by
  unfold Flt.linearise; pres

theorem newDef (e : FlatExpr (ZMod p)) : Pre L T (Flt.newDef e : FlatM p Z _) := by
  unfold Flt.newDef; pres

theorem useSyms (n : ℕ) : Pre L T (Flt.useSyms n : FlatM p Z _) := by
  induction n with
  | zero => exact pure _
  | succ n ih => exact bind useSym fun _ => bind ih fun _ => pure _

theorem leSyms (n : ℕ) : Pre L T (Flt.leSyms n : FlatM p Z _) := by
  induction n with
  | zero => exact pure _
  | succ n ih => exact bind useSym fun _ => bind useSym fun _ => bind ih fun _ => pure _

theorem leLoop (l) : Pre L T (Flt.leLoop l : FlatM p Z _) := by
  induction l with
  | nil => exact pure _
  | cons t rest ih =>
    obtain ⟨a, b, nsr, su⟩ := t
    unfold Flt.leLoop
    cases b
    · dsimp only; pres
    · dsimp only; pres

theorem constantLeCheck (a b) : Pre L T (Flt.constantLeCheck a b : FlatM p Z _) := by
  unfold Flt.constantLeCheck
  refine bind (assert _) fun _ => ite (bind (defineAll _) fun _ => bind (emitAll _) fun _ => pure _)
    (bind (leSyms _) fun s => bind ?_ fun _ => leLoop _)
  pres

theorem eqCheck (a b) : Pre L T (Flt.eqCheck a b : FlatM p Z _) := by
  unfold Flt.eqCheck
  have := define (p := p) (Z := Z) (L := L) (T := T) a
  have := define (p := p) (Z := Z) (L := L) (T := T) b
  pres

theorem enforceLeBits (a b e) : Pre L T (Flt.enforceLeBits a b e : FlatM p Z _) := by
  unfold Flt.enforceLeBits
  have := constantLeCheck (p := p) (Z := Z) (L := L) (T := T) a b
  pres

theorem cachedBits (a b c d) (h : T → a.exact = true ∧ b ≤ c) : Pre L T (Flt.cachedBits a b c d : FlatM p Z _) := by
  unfold Flt.cachedBits
  refine bind (emit _) fun _ => bind (raise _ fun hT => ?_) fun _ => pure _
  obtain ⟨h1, h2⟩ := h hT
  simp [h1, Nat.not_lt.2 h2]

theorem freshBits (a b c d) (h : T → b ≤ c) : Pre L T (Flt.freshBits a b c d : FlatM p Z _) := by
  unfold Flt.freshBits
  exact bind (useSyms _) fun _ => bind (emit _) fun _ => bind (emitAll _) fun _ => bind (emit _) fun _ =>
    bind (setCache _ _ fun hT _ => by simpa using h hT) fun _ => bind (setCache _ _ fun hT _ => by simpa using h hT) fun _ => pure _

theorem getBits (a b c d) (h : T → b ≤ c := by intro _; exact le_rfl) : Pre L T (Flt.getBits a b c d : FlatM p Z _) := by
  unfold Flt.getBits
  refine bind (assert _) fun _ => bind (assert _) fun _ => ?_
  split
  · exact bind (setCache _ _ fun _ hx => absurd rfl (hx _)) fun _ => pure _
  · rename_i hne
    split
    · pres
    · intro st r st' hm hi
      obtain ⟨f, st1, h1, h2⟩ := FlatM.bind_some hm
      obtain ⟨o, st2, h3, h4⟩ := FlatM.bind_some h2
      cases hf : a.field with
      | none => rw [hf] at h1; cases h1
      | some g =>
        rw [hf] at h1
        cases h1
        cases h3
        have hg : ∀ x, f ≠ .value x := fun x hx => hne x (by rw [hf, hx])
        cases hc : st.cache f with
        | none =>
          rw [hc] at h4
          exact freshBits _ _ _ _ (fun hT => by have := h hT; omega) _ _ _ h4 hi
        | some e =>
          rw [hc] at h4
          exact cachedBits _ _ _ _ (fun hT => ⟨hi.exact hT f e hc hg, by have := h hT; omega⟩) _ _ _ h4 hi

theorem getBits' (a b c d) (h : T → (∀ x, a.field ≠ some (.value x)) → b ≤ c) : Pre L T (Flt.getBits a b c d : FlatM p Z _) := by
  by_cases hx : ∃ x, a.field = some (.value x)
  · obtain ⟨x, hx⟩ := hx
    unfold Flt.getBits
    refine bind (assert _) fun _ => bind (assert _) fun _ => ?_
    rw [hx]
    exact bind (setCache _ _ fun _ hx => absurd rfl (hx _)) fun _ => pure _
  · exact getBits a b c d fun hT => h hT fun x h => hx ⟨x, h⟩

theorem iteP {b : Prop} [Decidable b] {m1 m2 : FlatM p Z α} (h1 : b → Pre L T m1) (h2 : ¬ b → Pre L T m2) :
    Pre L T (if b then m1 else m2) := by
  split
  · exact h1 ‹_›
  · exact h2 ‹_›

theorem getField (u) : Pre L T (Flt.getField u : FlatM p Z _) := by
  unfold Flt.getField; pres

theorem enforceConstantLe (a b c) : Pre L T (Flt.enforceConstantLe a b c : FlatM p Z _) := by
  unfold Flt.enforceConstantLe
  exact bind (getBits _ _ _ _) fun _ => enforceLeBits _ _ _

theorem enforceConstantLt (a b c) : Pre L T (Flt.enforceConstantLt a b c : FlatM p Z _) := by
  unfold Flt.enforceConstantLt
  exact ite (emit _) (enforceConstantLe _ _ _)

theorem constantFieldLe (a b) : Pre L T (Flt.constantFieldLe a b : FlatM p Z _) := by
  unfold Flt.constantFieldLe
  exact bind (getBits _ _ _ _) fun _ => bind (enforceLeBits _ _ _) fun _ => bind (constantLeCheck _ _) fun _ => eqCheck _ _

theorem constantLt (a b) : Pre L T (Flt.constantLt a b : FlatM p Z _) := by
  unfold Flt.constantLt
  exact ite (pure _) (constantFieldLe _ _)

theorem ltCheck (a b w) : Pre L T (Flt.ltCheck a b w : FlatM p Z _) := by
  unfold Flt.ltCheck
  split
  · exact constantLt _ _
  · exact constantLt _ _
  · unfold Flt.ltDynamic
    refine bind (define _) fun _ => bind (define _) fun _ => bind (getBits _ _ _ _) fun _ => ?_
    split
    · exact pure _
    · exact panic

theorem leCheck (a b w) : Pre L T (Flt.leCheck a b w : FlatM p Z _) := by
  unfold Flt.leCheck
  exact bind (eqCheck _ _) fun _ => bind (ltCheck _ _ _) fun _ => pure _

theorem enforceSafe (a b) : Pre L T (Flt.enforceSafe a b : FlatM p Z _) := by
  unfold Flt.enforceSafe
  exact bind (enforceConstantLt _ _ _) fun _ => enforceConstantLt _ _ _

theorem fieldLtCheck (a b) : Pre L T (Flt.fieldLtCheck a b : FlatM p Z _) := by
  unfold Flt.fieldLtCheck
  split
  · exact constantLt _ _
  · exact constantLt _ _
  · exact bind (enforceSafe _ _) fun _ => ltCheck _ _ _

theorem conditional {c t e : FlatM p Z (FlatExpr (ZMod p))} (hc : Pre L T c) (ht : Pre L T t) (he : Pre L T e) :
    Pre L T (Flt.conditional c t e) := by
  unfold Flt.conditional
  exact bind hc fun _ => bind (newDef _) fun _ => bind ht fun _ => bind he fun _ => bind (newDef _) fun _ =>
    bind (newDef _) fun _ => bind (newDef _) fun _ => bind (newDef _) fun _ => bind (newDef _) fun _ => pure _

theorem selFold (l a b) : Pre L T (Flt.selFold l a b : FlatM p Z _) := by
  induction l generalizing a b with
  | nil => exact pure _
  | cons t l ih => exact bind (newDef _) fun _ => ih _ _

theorem selFinish (l) : Pre L T (Flt.selFinish l : FlatM p Z _) := by
  unfold Flt.selFinish
  exact bind (selFold _ _ _) fun _ => bind (emit _) fun _ => pure _

theorem uTail (a b c d) (h : T → c = true → (∀ x, d.field ≠ some (.value x)) → Fld.bits b ≤ a) :
    Pre L T (Flt.uTail a b c d : FlatM p Z _) := by
  unfold Flt.uTail
  refine iteP (fun hc => bind (getBits' _ _ _ _ fun hT => h hT hc) fun _ => ite (pure _) (bind (getField _) fun _ => pure _)) fun _ => pure _

theorem readInfo (m) : Pre L T (Flt.readInfo m : FlatM p Z _) := by
  unfold Flt.readInfo; pres

theorem assertReduced (m) : Pre L T (Flt.assertReduced m : FlatM p Z _) := by
  unfold Flt.assertReduced
  exact bind (readInfo _) fun _ => assert _

theorem uintEqCheck {a b} {x y : FlatM p Z (FlatU p)} (hx : Pre L T x) (hy : Pre L T y) :
    Pre L T (Flt.uintEqCheck a x b y) := by
  unfold Flt.uintEqCheck
  exact bind (assertReduced _) fun _ => bind (assertReduced _) fun _ => bind hx fun _ => bind (getField _) fun _ =>
    bind hy fun _ => bind (getField _) fun _ => eqCheck _ _

theorem uintLtCheck {w a b} {x y : FlatM p Z (FlatU p)} (hx : Pre L T x) (hy : Pre L T y) :
    Pre L T (Flt.uintLtCheck w a x b y) := by
  unfold Flt.uintLtCheck
  exact bind (assertReduced _) fun _ => bind (assertReduced _) fun _ => bind hx fun _ => bind (getField _) fun _ =>
    bind hy fun _ => bind (getField _) fun _ => ltCheck _ _ _

theorem selCond {m} {x : FlatM p Z (FlatU p)} (hx : Pre L T x) (j) : Pre L T (Flt.selCond m x j) := by
  unfold Flt.selCond
  exact uintEqCheck (uTail _ _ _ _ fun _ _ h => absurd rfl (h _)) hx

theorem powSquares (l a) : Pre L T (Flt.powSquares l a : FlatM p Z _) := by
  induction l generalizing a with
  | nil => exact pure _
  | cons t l ih => exact bind (newDef _) fun _ => bind (ih _) fun _ => pure _

theorem powFold (l a) : Pre L T (Flt.powFold l a : FlatM p Z _) := by
  induction l generalizing a with
  | nil => exact pure _
  | cons t l ih =>
    obtain ⟨b, e⟩ := t
    cases b
    · exact ih _
    · exact bind (newDef _) fun _ => ih _

theorem powFlat (a n) : Pre L T (Flt.powFlat a n : FlatM p Z _) := by
  unfold Flt.powFlat
  refine bind (assert _) fun _ => ?_
  dsimp only
  split
  · exact pure _
  · exact bind (powSquares _ _) fun _ => powFold _ _

theorem divFlat (a b) : Pre L T (Flt.divFlat a b : FlatM p Z _) := by
  unfold Flt.divFlat
  exact bind (newDef _) fun _ => bind (newDef _) fun _ => bind useSym fun _ => bind (emit _) fun _ =>
    bind (emit _) fun _ => pure _

theorem euclid (w a b) : Pre L T (Flt.euclid w a b : FlatM p Z _) := by
  unfold Flt.euclid
  exact bind (linearise _) fun _ => bind (linearise _) fun _ => bind useSym fun _ => bind useSym fun _ =>
    bind (emit _) fun _ => bind (getBits _ _ _ _) fun _ => bind (getBits _ _ _ _) fun _ =>
    bind (getBits _ _ _ _) fun _ => bind (emit _) fun _ => pure _

theorem xorBit (a b) : Pre L T (Flt.xorBit a b : FlatM p Z _) := by
  have : ∀ n e, Pre L T (Flt.xorBit.xorConst n e : FlatM p Z _) := by
    intro n e
    unfold Flt.xorBit.xorConst
    exact ite (bind (define _) fun _ => pure _) (ite (bind (define _) fun _ => pure _) panic)
  unfold Flt.xorBit
  split
  · exact this _ _
  · exact this _ _
  · pres

theorem andBit (a b) : Pre L T (Flt.andBit a b : FlatM p Z _) := by
  have : ∀ n e, Pre L T (Flt.andBit.andConst n e : FlatM p Z _) := by
    intro n e
    unfold Flt.andBit.andConst
    exact ite (pure _) (ite (pure _) panic)
  unfold Flt.andBit
  split
  · exact this _ _
  · exact this _ _
  · exact bind (define _) fun _ => pure _

theorem orBit (a b) : Pre L T (Flt.orBit a b : FlatM p Z _) := by
  have : ∀ n e, Pre L T (Flt.orBit.orConst n e : FlatM p Z _) := by
    intro n e
    unfold Flt.orBit.orConst
    exact ite (bind (define _) fun _ => pure _) (ite (pure _) panic)
  unfold Flt.orBit
  split
  · exact this _ _
  · exact this _ _
  · pres

theorem notBit (a) : Pre L T (Flt.notBit a : FlatM p Z _) := by
  unfold Flt.notBit
  exact bind (define _) fun _ => pure _

theorem chBit (a b c) : Pre L T (Flt.chBit a b c : FlatM p Z _) := by unfold Flt.chBit; pres
theorem majBit (a b c) : Pre L T (Flt.majBit a b c : FlatM p Z _) := by unfold Flt.majBit; pres
theorem boolOr (a b) : Pre L T (Flt.boolOr a b : FlatM p Z _) := by unfold Flt.boolOr; pres

theorem zipBits {f : FlatExpr (ZMod p) → FlatExpr (ZMod p) → FlatM p Z (FlatExpr (ZMod p))} (hf : ∀ a b, Pre L T (f a b))
    (as bs) : Pre L T (Flt.zipBits f as bs) := by
  induction as generalizing bs with
  | nil => exact pure _
  | cons a as ih =>
    cases bs with
    | nil => exact pure _
    | cons b bs => exact bind (hf a b) fun _ => bind (ih bs) fun _ => pure _

theorem zipBits3 {f : FlatExpr (ZMod p) → FlatExpr (ZMod p) → FlatExpr (ZMod p) → FlatM p Z (FlatExpr (ZMod p))}
    (hf : ∀ a b c, Pre L T (f a b c)) (as bs cs) : Pre L T (Flt.zipBits3 f as bs cs) := by
  induction as generalizing bs cs with
  | nil => exact pure _
  | cons a as ih =>
    cases bs with
    | nil => exact pure _
    | cons b bs =>
      cases cs with
      | nil => exact pure _
      | cons c cs => exact bind (hf a b c) fun _ => bind (ih bs cs) fun _ => pure _

theorem mapBits {f : FlatExpr (ZMod p) → FlatM p Z (FlatExpr (ZMod p))} (hf : ∀ a, Pre L T (f a)) (as) :
    Pre L T (Flt.mapBits f as) := by
  induction as with
  | nil => exact pure _
  | cons a as ih => exact bind (hf a) fun _ => bind ih fun _ => pure _

theorem defaultXor {l r : FlatM p Z (FlatU p)} (hl : Pre L T l) (hr : Pre L T r) : Pre L T (Flt.defaultXor l r) := by
  unfold Flt.defaultXor
  exact bind hl fun _ => bind hr fun _ => bind (unwrap _) fun _ => bind (unwrap _) fun _ =>
    bind (zipBits xorBit _ _) fun _ => pure _

theorem threeBits {f : FlatExpr (ZMod p) → FlatExpr (ZMod p) → FlatExpr (ZMod p) → FlatM p Z (FlatExpr (ZMod p))}
    (hf : ∀ a b c, Pre L T (f a b c)) {a b c : FlatM p Z (FlatU p)} (ha : Pre L T a) (hb : Pre L T b) (hc : Pre L T c) :
    Pre L T (Flt.threeBits f a b c) := by
  unfold Flt.threeBits
  exact bind ha fun _ => bind hb fun _ => bind hc fun _ => bind (unwrap _) fun _ => bind (unwrap _) fun _ =>
    bind (unwrap _) fun _ => bind (zipBits3 hf _ _ _) fun _ => pure _

theorem twoFields {l r : FlatM p Z (FlatU p)} (hl : Pre L T l) (hr : Pre L T r) : Pre L T (Flt.twoFields l r) := by
  unfold Flt.twoFields
  exact bind hl fun _ => bind (getField _) fun _ => bind hr fun _ => bind (getField _) fun _ =>
    bind (linearise _) fun _ => bind (linearise _) fun _ => pure _

theorem twoLinear {l r : FlatM p Z (FlatExpr (ZMod p))} (hl : Pre L T l) (hr : Pre L T r) : Pre L T (Flt.twoLinear l r) := by
  unfold Flt.twoLinear
  exact bind hl fun _ => bind hr fun _ => bind (linearise _) fun _ => bind (linearise _) fun _ => pure _

theorem bitwise {w} {f : FlatExpr (ZMod p) → FlatExpr (ZMod p) → FlatM p Z (FlatExpr (ZMod p))} (hf : ∀ a b, Pre L T (f a b))
    {l r : FlatM p Z (FlatU p)} (hl : Pre L T l) (hr : Pre L T r) : Pre L T (Flt.bitwise w f l r) := by
  unfold Flt.bitwise
  exact bind hl fun _ => bind hr fun _ => bind (unwrap _) fun _ => bind (unwrap _) fun _ => bind (assert _) fun _ =>
    bind (assert _) fun _ => bind (zipBits hf _ _) fun _ => pure _

theorem selGen {α : Type} {f : α → FlatM p Z (FlatExpr (ZMod p))} (l : List α) (hf : ∀ a ∈ l, Pre L T (f a))
    {c : ℕ → FlatM p Z (FlatExpr (ZMod p))} (hc : ∀ i, Pre L T (c i)) (i : ℕ) : Pre L T (Zok.selGen f l i c) := by
  induction l generalizing i with
  | nil => exact pure _
  | cons a l ih =>
    exact bind (hc i) fun _ => bind (hf a (by simp)) fun _ => bind (ih (fun b hb => hf b (by simp [hb])) (i + 1)) fun _ =>
      pure _


theorem readInfoP {m : Option (UMeta (ZMod p))} {f : ZMod p × Bool → FlatM p Z α}
    (h : ∀ mx b, (∃ i, m = some i ∧ i.max = mx ∧ i.shouldReduce.toBool? = some b) → Pre L T (f (mx, b))) :
    Pre L T (Flt.readInfo m >>= f) := by
  intro st a st' hm hi
  obtain ⟨⟨mx, b⟩, st1, h1, h2⟩ := FlatM.bind_some hm
  unfold Flt.readInfo at h1
  obtain ⟨i, st2, h3, h4⟩ := FlatM.bind_some h1
  obtain ⟨b', st3, h5, h6⟩ := FlatM.bind_some h4
  cases m with
  | none => cases h3
  | some i =>
    cases h3
    cases hb : i.shouldReduce.toBool? with
    | none => rw [hb] at h5; cases h5
    | some b2 =>
      rw [hb] at h5
      cases h5
      cases h6
      exact h _ _ ⟨_, rfl, rfl, hb⟩ _ _ _ h2 hi

theorem _root_.Zok.FExpr.noWrapL_mem {e : FExpr (ZMod p)} {es : List (FExpr (ZMod p))} (h : FExpr.NoWrapL es) (he : e ∈ es) :
    e.NoWrap := by
  induction es with
  | nil => cases he
  | cons a es ih =>
    rw [FExpr.NoWrapL] at h
    rcases List.mem_cons.1 he with rfl | he
    · exact h.1
    · exact ih h.2 he

theorem _root_.Zok.BExpr.noWrapL_mem {e : BExpr (ZMod p)} {es : List (BExpr (ZMod p))} (h : BExpr.NoWrapL es) (he : e ∈ es) :
    e.NoWrap := by
  induction es with
  | nil => cases he
  | cons a es ih =>
    rw [BExpr.NoWrapL] at h
    rcases List.mem_cons.1 he with rfl | he
    · exact h.1
    · exact ih h.2 he

theorem _root_.Zok.UExpr.noWrapL_mem {e : UExpr (ZMod p)} {es : List (UExpr (ZMod p))} (h : UExpr.NoWrapL es) (he : e ∈ es) :
    e.NoWrap := by
  induction es with
  | nil => cases he
  | cons a es ih =>
    rw [UExpr.NoWrapL] at h
    rcases List.mem_cons.1 he with rfl | he
    · exact h.1
    · exact ih h.2 he

theorem all (n : ℕ) : (∀ e : FExpr (ZMod p), sizeOf e < n → (T → e.NoWrap) → Pre L T (Flt.flattenF e : FlatM p Z _)) ∧
    (∀ e : BExpr (ZMod p), sizeOf e < n → (T → e.NoWrap) → Pre L T (Flt.flattenB e : FlatM p Z _)) ∧
    (∀ e : UExpr (ZMod p), sizeOf e < n → (T → e.NoWrap) → Pre L T (Flt.flattenU e : FlatM p Z _)) := by
  induction n with
  | zero => exact ⟨fun _ h _ => absurd h (by omega), fun _ h _ => absurd h (by omega), fun _ h _ => absurd h (by omega)⟩
  | succ n ih =>
    obtain ⟨ihF, ihB, ihU⟩ := ih
    have hmem : ∀ {α : Type} [SizeOf α] (e : α) (es : List α), e ∈ es → sizeOf e < sizeOf es :=
      fun e es h => List.sizeOf_lt_of_mem h
    refine ⟨?_, ?_, ?_⟩
    · intro e hn hw
      cases e <;> rw [Flt.flattenF] <;> simp at hn
      case value => exact pure _
      case ident => exact bind (lookup _) fun _ => pure _
      case select es i =>
        rw [flattenSelF_eq]
        exact bind (selGen es (fun e he => ihF e (by have := hmem e es he; omega) (fun hT => by have h := hw hT; simp only [FExpr.NoWrap, BExpr.NoWrap, UExpr.NoWrap, UInner.NoWrap] at h; exact FExpr.noWrapL_mem (by tauto) he)) (selCond (ihU i (by omega) (fun hT => by have h := hw hT; simp only [FExpr.NoWrap, BExpr.NoWrap, UExpr.NoWrap, UInner.NoWrap] at h; tauto))) 0) fun _ =>
          bind (selFinish _) fun _ => getField _
      case add l r => exact bind (twoLinear (ihF l (by omega) (fun hT => by have h := hw hT; simp only [FExpr.NoWrap, BExpr.NoWrap, UExpr.NoWrap, UInner.NoWrap] at h; tauto)) (ihF r (by omega) (fun hT => by have h := hw hT; simp only [FExpr.NoWrap, BExpr.NoWrap, UExpr.NoWrap, UInner.NoWrap] at h; tauto))) fun _ => pure _
      case sub l r => exact bind (twoLinear (ihF l (by omega) (fun hT => by have h := hw hT; simp only [FExpr.NoWrap, BExpr.NoWrap, UExpr.NoWrap, UInner.NoWrap] at h; tauto)) (ihF r (by omega) (fun hT => by have h := hw hT; simp only [FExpr.NoWrap, BExpr.NoWrap, UExpr.NoWrap, UInner.NoWrap] at h; tauto))) fun _ => pure _
      case mult l r => exact bind (twoLinear (ihF l (by omega) (fun hT => by have h := hw hT; simp only [FExpr.NoWrap, BExpr.NoWrap, UExpr.NoWrap, UInner.NoWrap] at h; tauto)) (ihF r (by omega) (fun hT => by have h := hw hT; simp only [FExpr.NoWrap, BExpr.NoWrap, UExpr.NoWrap, UInner.NoWrap] at h; tauto))) fun _ => pure _
      case div l r => exact bind (ihF l (by omega) (fun hT => by have h := hw hT; simp only [FExpr.NoWrap, BExpr.NoWrap, UExpr.NoWrap, UInner.NoWrap] at h; tauto)) fun _ => bind (ihF r (by omega) (fun hT => by have h := hw hT; simp only [FExpr.NoWrap, BExpr.NoWrap, UExpr.NoWrap, UInner.NoWrap] at h; tauto)) fun _ => divFlat _ _
      case pow b e =>
        split
        · exact bind (ihF b (by omega) (fun hT => by have h := hw hT; simp only [FExpr.NoWrap, BExpr.NoWrap, UExpr.NoWrap, UInner.NoWrap] at h; tauto)) fun _ => powFlat _ _
        · exact panic
      case cond c t e =>
        exact bind (conditional (ihB c (by omega) (fun hT => by have h := hw hT; simp only [FExpr.NoWrap, BExpr.NoWrap, UExpr.NoWrap, UInner.NoWrap] at h; tauto)) (ihF t (by omega) (fun hT => by have h := hw hT; simp only [FExpr.NoWrap, BExpr.NoWrap, UExpr.NoWrap, UInner.NoWrap] at h; tauto)) (ihF e (by omega) (fun hT => by have h := hw hT; simp only [FExpr.NoWrap, BExpr.NoWrap, UExpr.NoWrap, UInner.NoWrap] at h; tauto))) fun _ => getField _
      all_goals exact panic
    · intro e hn hw
      cases e <;> rw [Flt.flattenB] <;> simp at hn
      case value => exact pure _
      case ident => exact bind (lookup _) fun _ => pure _
      case select es i =>
        rw [flattenSelB_eq]
        exact bind (selGen es (fun e he => ihB e (by have := hmem e es he; omega) (fun hT => by have h := hw hT; simp only [FExpr.NoWrap, BExpr.NoWrap, UExpr.NoWrap, UInner.NoWrap] at h; exact BExpr.noWrapL_mem (by tauto) he)) (selCond (ihU i (by omega) (fun hT => by have h := hw hT; simp only [FExpr.NoWrap, BExpr.NoWrap, UExpr.NoWrap, UInner.NoWrap] at h; tauto))) 0) fun _ =>
          bind (selFinish _) fun _ => getField _
      case fieldLt l r => exact bind (ihF l (by omega) (fun hT => by have h := hw hT; simp only [FExpr.NoWrap, BExpr.NoWrap, UExpr.NoWrap, UInner.NoWrap] at h; tauto)) fun _ => bind (ihF r (by omega) (fun hT => by have h := hw hT; simp only [FExpr.NoWrap, BExpr.NoWrap, UExpr.NoWrap, UInner.NoWrap] at h; tauto)) fun _ => fieldLtCheck _ _
      case fieldLe l r =>
        exact bind (ihF l (by omega) (fun hT => by have h := hw hT; simp only [FExpr.NoWrap, BExpr.NoWrap, UExpr.NoWrap, UInner.NoWrap] at h; tauto)) fun _ => bind (ihF r (by omega) (fun hT => by have h := hw hT; simp only [FExpr.NoWrap, BExpr.NoWrap, UExpr.NoWrap, UInner.NoWrap] at h; tauto)) fun _ => bind (fieldLtCheck _ _) fun _ =>
          bind (ihF l (by omega) (fun hT => by have h := hw hT; simp only [FExpr.NoWrap, BExpr.NoWrap, UExpr.NoWrap, UInner.NoWrap] at h; tauto)) fun _ => bind (ihF r (by omega) (fun hT => by have h := hw hT; simp only [FExpr.NoWrap, BExpr.NoWrap, UExpr.NoWrap, UInner.NoWrap] at h; tauto)) fun _ => bind (eqCheck _ _) fun _ => pure _
      case fieldEq l r => exact bind (ihF l (by omega) (fun hT => by have h := hw hT; simp only [FExpr.NoWrap, BExpr.NoWrap, UExpr.NoWrap, UInner.NoWrap] at h; tauto)) fun _ => bind (ihF r (by omega) (fun hT => by have h := hw hT; simp only [FExpr.NoWrap, BExpr.NoWrap, UExpr.NoWrap, UInner.NoWrap] at h; tauto)) fun _ => eqCheck _ _
      case uintLt l r => exact uintLtCheck (ihU l (by omega) (fun hT => by have h := hw hT; simp only [FExpr.NoWrap, BExpr.NoWrap, UExpr.NoWrap, UInner.NoWrap] at h; tauto)) (ihU r (by omega) (fun hT => by have h := hw hT; simp only [FExpr.NoWrap, BExpr.NoWrap, UExpr.NoWrap, UInner.NoWrap] at h; tauto))
      case uintLe l r =>
        exact bind (uintLtCheck (ihU l (by omega) (fun hT => by have h := hw hT; simp only [FExpr.NoWrap, BExpr.NoWrap, UExpr.NoWrap, UInner.NoWrap] at h; tauto)) (ihU r (by omega) (fun hT => by have h := hw hT; simp only [FExpr.NoWrap, BExpr.NoWrap, UExpr.NoWrap, UInner.NoWrap] at h; tauto))) fun _ =>
          bind (uintEqCheck (ihU l (by omega) (fun hT => by have h := hw hT; simp only [FExpr.NoWrap, BExpr.NoWrap, UExpr.NoWrap, UInner.NoWrap] at h; tauto)) (ihU r (by omega) (fun hT => by have h := hw hT; simp only [FExpr.NoWrap, BExpr.NoWrap, UExpr.NoWrap, UInner.NoWrap] at h; tauto))) fun _ => pure _
      case uintEq l r => exact uintEqCheck (ihU l (by omega) (fun hT => by have h := hw hT; simp only [FExpr.NoWrap, BExpr.NoWrap, UExpr.NoWrap, UInner.NoWrap] at h; tauto)) (ihU r (by omega) (fun hT => by have h := hw hT; simp only [FExpr.NoWrap, BExpr.NoWrap, UExpr.NoWrap, UInner.NoWrap] at h; tauto))
      case boolEq l r =>
        exact bind (ihB l (by omega) (fun hT => by have h := hw hT; simp only [FExpr.NoWrap, BExpr.NoWrap, UExpr.NoWrap, UInner.NoWrap] at h; tauto)) fun _ => bind (ihB r (by omega) (fun hT => by have h := hw hT; simp only [FExpr.NoWrap, BExpr.NoWrap, UExpr.NoWrap, UInner.NoWrap] at h; tauto)) fun _ => bind (newDef _) fun _ => pure _
      case or l r => exact bind (ihB l (by omega) (fun hT => by have h := hw hT; simp only [FExpr.NoWrap, BExpr.NoWrap, UExpr.NoWrap, UInner.NoWrap] at h; tauto)) fun _ => bind (ihB r (by omega) (fun hT => by have h := hw hT; simp only [FExpr.NoWrap, BExpr.NoWrap, UExpr.NoWrap, UInner.NoWrap] at h; tauto)) fun _ => boolOr _ _
      case and l r =>
        exact bind (ihB l (by omega) (fun hT => by have h := hw hT; simp only [FExpr.NoWrap, BExpr.NoWrap, UExpr.NoWrap, UInner.NoWrap] at h; tauto)) fun _ => bind (ihB r (by omega) (fun hT => by have h := hw hT; simp only [FExpr.NoWrap, BExpr.NoWrap, UExpr.NoWrap, UInner.NoWrap] at h; tauto)) fun _ => bind useSym fun _ =>
          bind (assert _) fun _ => bind (emit _) fun _ => pure _
      case not e => exact bind (ihB e (by omega) (fun hT => by have h := hw hT; simp only [FExpr.NoWrap, BExpr.NoWrap, UExpr.NoWrap, UInner.NoWrap] at h; tauto)) fun _ => pure _
      case cond c t e =>
        exact bind (conditional (ihB c (by omega) (fun hT => by have h := hw hT; simp only [FExpr.NoWrap, BExpr.NoWrap, UExpr.NoWrap, UInner.NoWrap] at h; tauto)) (ihB t (by omega) (fun hT => by have h := hw hT; simp only [FExpr.NoWrap, BExpr.NoWrap, UExpr.NoWrap, UInner.NoWrap] at h; tauto)) (ihB e (by omega) (fun hT => by have h := hw hT; simp only [FExpr.NoWrap, BExpr.NoWrap, UExpr.NoWrap, UInner.NoWrap] at h; tauto))) fun _ => getField _
    · rintro ⟨w, m, i⟩ hn hw
      simp at hn
      rw [Flt.flattenU]
      refine readInfoP fun mx b hm => bind ?_ fun _ => uTail _ _ _ _ fun hT hb _ => ?_
      rotate_left
      · obtain ⟨i, rfl, rfl, h3⟩ := hm
        have h := hw hT
        rw [UExpr.NoWrap] at h
        refine h.1 i rfl ?_

        rw [hb] at h3
        cases hr : i.shouldReduce <;> rw [hr] at h3 <;> first | rfl | cases h3
      cases i
      case xor l r =>
        simp at hn
        refine flattenUI_xor_cases w l r (fun m => Pre L T m) (fun o m h => bind (unwrap o) fun _ => h) ?_ ?_
          (defaultXor (ihU l (by omega) (fun hT => by have h := hw hT; simp only [FExpr.NoWrap, BExpr.NoWrap, UExpr.NoWrap, UInner.NoWrap] at h; tauto)) (ihU r (by omega) (fun hT => by have h := hw hT; simp only [FExpr.NoWrap, BExpr.NoWrap, UExpr.NoWrap, UInner.NoWrap] at h; tauto)))
        · rintro wl ml a b wr mr wa ma c rfl rfl
          simp at hn
          exact threeBits chBit (ihU a (by omega) (fun hT => by have h := hw hT; simp only [FExpr.NoWrap, BExpr.NoWrap, UExpr.NoWrap, UInner.NoWrap] at h; tauto)) (ihU b (by omega) (fun hT => by have h := hw hT; simp only [FExpr.NoWrap, BExpr.NoWrap, UExpr.NoWrap, UInner.NoWrap] at h; tauto)) (ihU c (by omega) (fun hT => by have h := hw hT; simp only [FExpr.NoWrap, BExpr.NoWrap, UExpr.NoWrap, UInner.NoWrap] at h; tauto))
        · rintro wl ml w0 m0 a b w1 m1 c wr mr rfl rfl
          simp at hn
          exact threeBits majBit (ihU a (by omega) (fun hT => by have h := hw hT; simp only [FExpr.NoWrap, BExpr.NoWrap, UExpr.NoWrap, UInner.NoWrap] at h; tauto)) (ihU b (by omega) (fun hT => by have h := hw hT; simp only [FExpr.NoWrap, BExpr.NoWrap, UExpr.NoWrap, UInner.NoWrap] at h; tauto)) (ihU c (by omega) (fun hT => by have h := hw hT; simp only [FExpr.NoWrap, BExpr.NoWrap, UExpr.NoWrap, UInner.NoWrap] at h; tauto))
      all_goals (rw [Flt.flattenUI]; simp at hn)
      case value => exact pure _
      case ident =>
        refine bind (lookup _) fun _ => bind (getCache _) fun _ => ?_
        split
        · exact pure _
        · exact bind (assert _) fun _ => pure _
      case select es i =>
        rw [flattenSelU_eq]
        exact bind (selGen es (fun e he => bind (ihU e (by have := hmem e es he; omega) (fun hT => by have h := hw hT; simp only [FExpr.NoWrap, BExpr.NoWrap, UExpr.NoWrap, UInner.NoWrap] at h; exact UExpr.noWrapL_mem (by tauto) he)) fun _ => getField _)
          (selCond (ihU i (by omega) (fun hT => by have h := hw hT; simp only [FExpr.NoWrap, BExpr.NoWrap, UExpr.NoWrap, UInner.NoWrap] at h; tauto))) 0) fun _ => selFinish _
      case add l r => exact bind (twoFields (ihU l (by omega) (fun hT => by have h := hw hT; simp only [FExpr.NoWrap, BExpr.NoWrap, UExpr.NoWrap, UInner.NoWrap] at h; tauto)) (ihU r (by omega) (fun hT => by have h := hw hT; simp only [FExpr.NoWrap, BExpr.NoWrap, UExpr.NoWrap, UInner.NoWrap] at h; tauto))) fun _ => pure _
      case sub l r => exact bind (unwrap _) fun _ => bind (twoFields (ihU l (by omega) (fun hT => by have h := hw hT; simp only [FExpr.NoWrap, BExpr.NoWrap, UExpr.NoWrap, UInner.NoWrap] at h; tauto)) (ihU r (by omega) (fun hT => by have h := hw hT; simp only [FExpr.NoWrap, BExpr.NoWrap, UExpr.NoWrap, UInner.NoWrap] at h; tauto))) fun _ => pure _
      case mult l r =>
        exact bind (twoFields (ihU l (by omega) (fun hT => by have h := hw hT; simp only [FExpr.NoWrap, BExpr.NoWrap, UExpr.NoWrap, UInner.NoWrap] at h; tauto)) (ihU r (by omega) (fun hT => by have h := hw hT; simp only [FExpr.NoWrap, BExpr.NoWrap, UExpr.NoWrap, UInner.NoWrap] at h; tauto))) fun _ => bind (newDef _) fun _ => pure _
      case div l r =>
        exact bind (ihU l (by omega) (fun hT => by have h := hw hT; simp only [FExpr.NoWrap, BExpr.NoWrap, UExpr.NoWrap, UInner.NoWrap] at h; tauto)) fun _ => bind (getField _) fun _ => bind (ihU r (by omega) (fun hT => by have h := hw hT; simp only [FExpr.NoWrap, BExpr.NoWrap, UExpr.NoWrap, UInner.NoWrap] at h; tauto)) fun _ =>
          bind (getField _) fun _ => bind (euclid _ _ _) fun _ => pure _
      case rem l r =>
        exact bind (ihU l (by omega) (fun hT => by have h := hw hT; simp only [FExpr.NoWrap, BExpr.NoWrap, UExpr.NoWrap, UInner.NoWrap] at h; tauto)) fun _ => bind (getField _) fun _ => bind (ihU r (by omega) (fun hT => by have h := hw hT; simp only [FExpr.NoWrap, BExpr.NoWrap, UExpr.NoWrap, UInner.NoWrap] at h; tauto)) fun _ =>
          bind (getField _) fun _ => bind (euclid _ _ _) fun _ => pure _
      case and l r => exact bitwise andBit (ihU l (by omega) (fun hT => by have h := hw hT; simp only [FExpr.NoWrap, BExpr.NoWrap, UExpr.NoWrap, UInner.NoWrap] at h; tauto)) (ihU r (by omega) (fun hT => by have h := hw hT; simp only [FExpr.NoWrap, BExpr.NoWrap, UExpr.NoWrap, UInner.NoWrap] at h; tauto))
      case or l r => exact bitwise orBit (ihU l (by omega) (fun hT => by have h := hw hT; simp only [FExpr.NoWrap, BExpr.NoWrap, UExpr.NoWrap, UInner.NoWrap] at h; tauto)) (ihU r (by omega) (fun hT => by have h := hw hT; simp only [FExpr.NoWrap, BExpr.NoWrap, UExpr.NoWrap, UInner.NoWrap] at h; tauto))
      case leftShift e b =>
        split
        · exact bind (ihU e (by omega) (fun hT => by have h := hw hT; simp only [FExpr.NoWrap, BExpr.NoWrap, UExpr.NoWrap, UInner.NoWrap] at h; tauto)) fun _ => bind (unwrap _) fun _ => bind (assert _) fun _ => pure _
        · exact panic
      case rightShift e b =>
        split
        · exact bind (ihU e (by omega) (fun hT => by have h := hw hT; simp only [FExpr.NoWrap, BExpr.NoWrap, UExpr.NoWrap, UInner.NoWrap] at h; tauto)) fun _ => bind (unwrap _) fun _ => bind (assert _) fun _ => pure _
        · exact panic
      case not e =>
        exact bind (ihU e (by omega) (fun hT => by have h := hw hT; simp only [FExpr.NoWrap, BExpr.NoWrap, UExpr.NoWrap, UInner.NoWrap] at h; tauto)) fun _ => bind (unwrap _) fun _ => bind (assert _) fun _ =>
          bind (mapBits notBit _) fun _ => pure _
      case cond c t e =>
        exact conditional (ihB c (by omega) (fun hT => by have h := hw hT; simp only [FExpr.NoWrap, BExpr.NoWrap, UExpr.NoWrap, UInner.NoWrap] at h; tauto)) (bind (ihU t (by omega) (fun hT => by have h := hw hT; simp only [FExpr.NoWrap, BExpr.NoWrap, UExpr.NoWrap, UInner.NoWrap] at h; tauto)) fun _ => getField _)
          (bind (ihU e (by omega) (fun hT => by have h := hw hT; simp only [FExpr.NoWrap, BExpr.NoWrap, UExpr.NoWrap, UInner.NoWrap] at h; tauto)) fun _ => getField _)

theorem flattenF (e : FExpr (ZMod p)) (h : T → e.NoWrap) : Pre L T (Flt.flattenF e : FlatM p Z _) := (all (sizeOf e + 1)).1 e (by omega) h
theorem flattenB (e : BExpr (ZMod p)) (h : T → e.NoWrap) : Pre L T (Flt.flattenB e : FlatM p Z _) := (all (sizeOf e + 1)).2.1 e (by omega) h
theorem flattenU (e : UExpr (ZMod p)) (h : T → e.NoWrap) : Pre L T (Flt.flattenU e : FlatM p Z _) := (all (sizeOf e + 1)).2.2 e (by omega) h

theorem flattenZ (e : ZExpr (ZMod p)) (h : T → e.NoWrap) : Pre L T (Flt.flattenZ e : FlatM p Z _) := by
  cases e <;> unfold Flt.flattenZ
  · exact bind (flattenF _ h) fun _ => pure _
  · exact bind (flattenB _ h) fun _ => pure _
  · exact flattenU _ h

theorem flattenZs (es : List (ZExpr (ZMod p))) (h : T → ∀ e ∈ es, e.NoWrap) : Pre L T (Flt.flattenZs es : FlatM p Z _) := by
  induction es with
  | nil => exact pure _
  | cons e es ih => exact bind (flattenZ e (fun hT => h hT _ (by simp))) fun _ => bind (getField _) fun _ => bind (ih (fun hT x hx => h hT x (by simp [hx]))) fun _ => pure _

theorem assertArg (e : ZExpr (ZMod p)) : Pre L T (Flt.assertArg e : FlatM p Z _) := by
  unfold Flt.assertArg; pres

theorem flattenArgs (es : List (ZExpr (ZMod p))) (h : T → ∀ e ∈ es, e.NoWrap) : Pre L T (Flt.flattenArgs es : FlatM p Z _) := by
  induction es with
  | nil => exact pure _
  | cons e es ih => exact bind (assertArg e) fun _ => bind (flattenZ e (fun hT => h hT _ (by simp))) fun _ => bind (ih (fun hT x hx => h hT x (by simp [hx]))) fun _ => pure _

theorem getFields (us : List (FlatU p)) : Pre L T (Flt.getFields us : FlatM p Z _) := by
  induction us with
  | nil => exact pure _
  | cons e es ih => exact bind (getField e) fun _ => bind ih fun _ => pure _

theorem constBool (e) : Pre L T (Flt.constBool e : FlatM p Z _) := by
  unfold Flt.constBool; pres

theorem constBools (es) : Pre L T (Flt.constBools es : FlatM p Z _) := by
  induction es with
  | nil => exact pure _
  | cons e es ih => exact bind (constBool e) fun _ => bind ih fun _ => pure _

theorem unpackCall (n us) : Pre L T (Flt.unpackCall n us : FlatM p Z _) := by
  unfold Flt.unpackCall
  refine bind (getFields _) fun _ => bind ?_ fun _ => bind (useSyms _) fun _ => bind (emit _) fun _ =>
    bind (emitAll _) fun _ => bind (emit _) fun _ => bind (useSyms _) fun _ => bind (emitAll _) fun _ => pure _
  split
  · exact define _
  · exact panic

theorem embedCall (e g a) (h : T → ∀ e ∈ a, e.NoWrap) : Pre L T (Flt.embedCall e g a : FlatM p Z _) := by
  unfold Flt.embedCall
  refine bind (flattenArgs _ h) fun _ => ?_
  split
  · pres
  · pres
  · exact bind (getFields _) fun _ => bind (assert _) fun _ => pure _
  · exact bind (unwrap _) fun _ => bind (assert _) fun _ => bind (getFields _) fun _ => bind (defineAll _) fun _ =>
      bind (getFields _) fun _ => bind (constBools _) fun _ => bind (constantLeCheck _ _) fun _ =>
      bind (eqCheck _ _) fun _ => pure _
  · exact bind (unwrap _) fun _ => unpackCall _ _

theorem equalityAssertion (a b e) : Pre L T (Flt.equalityAssertion a b e : FlatM p Z _) := by
  have h : ∀ l r z, Pre L T (Flt.equalityAssertion.product e l r z : FlatM p Z _) := fun l r z =>
    bind (linearise _) fun _ => bind (linearise _) fun _ => bind (linearise _) fun _ => emit _
  unfold Flt.equalityAssertion
  split
  · exact h _ _ _
  · exact h _ _ _
  · exact bind (linearise _) fun _ => bind (linearise _) fun _ => emit _

theorem notZeroAssertion (x) : Pre L T (Flt.notZeroAssertion x : FlatM p Z _) := by
  unfold Flt.notZeroAssertion
  exact bind (define _) fun _ => bind useSym fun _ => bind (emit _) fun _ => emit _

theorem naiveAssertion (e err) (h : T → e.NoWrap) : Pre L T (Flt.naiveAssertion e err : FlatM p Z _) := by
  unfold Flt.naiveAssertion
  exact bind (flattenB _ h) fun _ => ite (emit _) (emit _)

theorem cmpAssertion {m : ZMod p} {c : FlatExpr (ZMod p) → ZMod p → RuntimeError → FlatM p Z Unit}
    {d : FlatExpr (ZMod p) → FlatExpr (ZMod p) → FlatM p Z (FlatExpr (ZMod p))} (hc : ∀ a b e, Pre L T (c a b e))
    (hd : ∀ a b, Pre L T (d a b)) (a b e) : Pre L T (Flt.cmpAssertion m c d a b e) := by
  unfold Flt.cmpAssertion
  split
  · exact hc _ _ _
  · exact hc _ _ _
  · exact bind (hd _ _) fun _ => emit _

theorem twoUFields (l r) (h : T → l.NoWrap ∧ r.NoWrap) : Pre L T (Flt.twoUFields l r : FlatM p Z _) := by
  unfold Flt.twoUFields
  exact bind (flattenU _ fun hT => (h hT).1) fun _ => bind (getField _) fun _ => bind (flattenU _ fun hT => (h hT).2) fun _ =>
    bind (getField _) fun _ => pure _

theorem assertion (e err) (h : T → e.NoWrap) : Pre L T (Flt.assertion e err : FlatM p Z _) := by
  unfold Flt.assertion
  split
  · exact bind (flattenF _ (fun hT => by have h := h hT; (try simp only [BExpr.NoWrap] at h); tauto)) fun _ => bind (flattenF _ (fun hT => by have h := h hT; (try simp only [BExpr.NoWrap] at h); tauto)) fun _ => equalityAssertion _ _ _
  · exact bind (flattenF _ (fun hT => by have h := h hT; (try simp only [BExpr.NoWrap] at h); tauto)) fun _ => bind (flattenF _ (fun hT => by have h := h hT; (try simp only [BExpr.NoWrap] at h); tauto)) fun _ => cmpAssertion enforceConstantLt
      (fun _ _ => bind (enforceSafe _ _) fun _ => ltCheck _ _ _) _ _ _
  · exact bind (flattenF _ (fun hT => by have h := h hT; (try simp only [BExpr.NoWrap] at h); tauto)) fun _ => bind (flattenF _ (fun hT => by have h := h hT; (try simp only [BExpr.NoWrap] at h); tauto)) fun _ => cmpAssertion enforceConstantLe
      (fun _ _ => bind (enforceSafe _ _) fun _ => leCheck _ _ _) _ _ _
  · exact bind (twoUFields _ _ (fun hT => by have h := h hT; (try simp only [BExpr.NoWrap] at h); tauto)) fun _ => cmpAssertion enforceConstantLt (fun _ _ => ltCheck _ _ _) _ _ _
  · exact bind (twoUFields _ _ (fun hT => by have h := h hT; (try simp only [BExpr.NoWrap] at h); tauto)) fun _ => cmpAssertion enforceConstantLe (fun _ _ => leCheck _ _ _) _ _ _
  · exact bind (twoUFields _ _ (fun hT => by have h := h hT; (try simp only [BExpr.NoWrap] at h); tauto)) fun _ => equalityAssertion _ _ _
  · exact bind (flattenB _ (fun hT => by have h := h hT; (try simp only [BExpr.NoWrap] at h); tauto)) fun _ => bind (flattenB _ (fun hT => by have h := h hT; (try simp only [BExpr.NoWrap] at h); tauto)) fun _ => equalityAssertion _ _ _
  · split
    · exact bind (flattenU _ (fun hT => by have h := h hT; (try simp only [BExpr.NoWrap] at h); tauto)) fun _ => bind (getField _) fun _ => notZeroAssertion _
    · exact bind (flattenU _ (fun hT => by have h := h hT; (try simp only [BExpr.NoWrap] at h); tauto)) fun _ => bind (getField _) fun _ => notZeroAssertion _
    · exact naiveAssertion _ _ (fun hT => by have h := h hT; (try simp only [BExpr.NoWrap] at h); tauto)
  · exact ite (bind (flattenF _ (fun hT => by have h := h hT; (try simp only [BExpr.NoWrap] at h); tauto)) fun _ => notZeroAssertion _)
      (ite (bind (flattenF _ (fun hT => by have h := h hT; (try simp only [BExpr.NoWrap] at h); tauto)) fun _ => notZeroAssertion _) (naiveAssertion _ _ (fun hT => by have h := h hT; (try simp only [BExpr.NoWrap] at h); tauto)))
  · exact naiveAssertion _ _ (fun hT => by have h := h hT; (try simp only [BExpr.NoWrap] at h); tauto)

theorem assertions (err) (es : List (BExpr (ZMod p))) (h : T → ∀ e ∈ es, e.NoWrap) : Pre L T (Flt.assertions err es : FlatM p Z _) := by
  induction es with
  | nil => exact pure _
  | cons e es ih => exact bind (assertion e err (fun hT => h hT _ (by simp))) fun _ => ih (fun hT x hx => h hT x (by simp [hx]))

theorem lookups (xs) : Pre L T (Flt.lookups xs : FlatM p Z _) := by
  induction xs with
  | nil => exact pure _
  | cons e es ih => exact bind (lookup e) fun _ => bind ih fun _ => pure _

theorem flattenLog (es : List (List (ZExpr (ZMod p)))) (h : T → ∀ l ∈ es, ∀ e ∈ l, e.NoWrap) : Pre L T (Flt.flattenLog es : FlatM p Z _) := by
  induction es with
  | nil => exact pure _
  | cons e es ih => exact bind (flattenZs e (fun hT => h hT _ (by simp))) fun _ => bind (ih (fun hT x hx => h hT x (by simp [hx]))) fun _ => pure _


theorem conjuncts_noWrap {e : BExpr (ZMod p)} (h : e.NoWrap) : ∀ c ∈ Flt.conjuncts e, c.NoWrap := by
  have key : ∀ n (e : BExpr (ZMod p)), sizeOf e < n → e.NoWrap → ∀ c ∈ Flt.conjuncts e, c.NoWrap := by
    intro n
    induction n with
    | zero => intro e hn; omega
    | succ n ih =>
      intro e hn h c hc
      unfold Flt.conjuncts at hc
      split at hc
      · simp at hn
        rw [BExpr.NoWrap] at h
        rcases List.mem_append.1 hc with hc | hc
        · exact ih _ (by omega) h.2 c hc
        · exact ih _ (by omega) h.1 c hc
      · rw [List.mem_singleton.1 hc]; exact h
  exact key _ e (Nat.lt_succ_self _) h

theorem useVariable (x) : Pre L T (Flt.useVariable x : FlatM p Z _) := by
  intro st b st' hm hi; cases hm; exact ⟨hi.leaf, hi.clash, hi.exact⟩

theorem useExisting (x v) : Pre L T (Flt.useExisting x v : FlatM p Z _) := by
  intro st b st' hm hi; cases hm; exact ⟨hi.leaf, hi.clash, hi.exact⟩

theorem bindVar (x e) : Pre L T (Flt.bindVar x e : FlatM p Z _) := by
  unfold Flt.bindVar
  split
  · exact bind (useExisting _ _) fun _ => pure _
  · exact bind (useVariable _) fun _ => bind (emit _) fun _ => pure _

theorem bindVars (xs us) : Pre L T (Flt.bindVars xs us : FlatM p Z _) := by
  induction xs generalizing us with
  | nil => exact pure _
  | cons x xs ih =>
    cases us with
    | nil => exact pure _
    | cons u us => exact bind (getField _) fun _ => bind (bindVar _ _) fun _ => bind (ih us) fun _ => pure _

theorem useVariables (xs) : Pre L T (Flt.useVariables xs : FlatM p Z _) := by
  induction xs with
  | nil => exact pure _
  | cons e es ih => exact bind (useVariable e) fun _ => bind ih fun _ => pure _

theorem flattenAsm (s : ZAsm (ZMod p) Z) (h : T → s.NoWrap) : Pre L T (Flt.flattenAsm s : FlatM p Z _) := by
  unfold Flt.flattenAsm
  split
  · exact bind (lookups _) fun _ => bind (useVariables _) fun _ => emit _
  · exact bind (flattenF _ fun hT => (h hT).1) fun _ => bind (flattenF _ fun hT => (h hT).2) fun _ => emit _

theorem flattenAsms (ss : List (ZAsm (ZMod p) Z)) (h : T → ∀ s ∈ ss, s.NoWrap) :
    Pre L T (Flt.flattenAsms ss : FlatM p Z _) := by
  induction ss with
  | nil => exact pure _
  | cons e es ih => exact bind (flattenAsm e fun hT => h hT _ (by simp)) fun _ => ih fun hT x hx => h hT x (by simp [hx])

theorem inBlock {m : FlatM p Z Unit} (hL : ¬ L) (h : Pre L T m) : Pre L T (Flt.inBlock m) := by
  intro st b st' hm hi
  unfold Flt.inBlock at hm
  cases h1 : m { st with out := [] } with
  | none => rw [h1] at hm; cases hm
  | some t =>
    rw [h1] at hm
    cases hm
    have := h _ _ _ h1 ⟨(fun _ s hs => by cases hs), hi.clash, hi.exact⟩
    exact ⟨fun h => absurd h hL, this.clash, this.exact⟩

/-- The bits attached to a flattened integer are the whole decomposition. -/
def Ends (m : FlatM p Z (FlatU p)) : Prop := ∀ st a st', m st = some (a, st') → a.exact = true

theorem Ends.bind {m : FlatM p Z α} {f : α → FlatM p Z (FlatU p)} (h : ∀ a, Ends (f a)) : Ends (m >>= f) := by
  intro st a st' hm
  obtain ⟨b, st1, _, h2⟩ := FlatM.bind_some hm
  exact h b _ _ _ h2

theorem Ends.pure {u : FlatU p} (h : u.exact = true) : Ends (Pure.pure u : FlatM p Z _) := by
  intro st a st' hm
  have : some (u, st) = some (a, st') := hm
  cases this
  exact h

theorem Ends.panic : Ends (Flt.panic : FlatM p Z _) := by intro st a st' hm; cases hm

theorem Ends.conditional {c t e : FlatM p Z (FlatExpr (ZMod p))} : Ends (Flt.conditional c t e) := by
  unfold Flt.conditional
  exact .bind fun _ => .bind fun _ => .bind fun _ => .bind fun _ => .bind fun _ => .bind fun _ => .bind fun _ => .bind fun _ =>
    .bind fun _ => .pure rfl

theorem Ends.selFinish (l) : Ends (Flt.selFinish l : FlatM p Z _) := by
  unfold Flt.selFinish
  exact .bind fun _ => .bind fun _ => .pure rfl

theorem Ends.threeBits (f a b c) : Ends (Flt.threeBits f a b c : FlatM p Z _) := by
  unfold Flt.threeBits
  exact .bind fun _ => .bind fun _ => .bind fun _ => .bind fun _ => .bind fun _ => .bind fun _ => .bind fun _ => .pure rfl

theorem Ends.defaultXor (a b) : Ends (Flt.defaultXor a b : FlatM p Z _) := by
  unfold Flt.defaultXor
  exact .bind fun _ => .bind fun _ => .bind fun _ => .bind fun _ => .bind fun _ => .pure rfl

theorem Ends.bitwise (w f a b) : Ends (Flt.bitwise w f a b : FlatM p Z _) := by
  unfold Flt.bitwise
  exact .bind fun _ => .bind fun _ => .bind fun _ => .bind fun _ => .bind fun _ => .bind fun _ => .bind fun _ => .pure rfl

theorem Ends.flattenUI (w : ℕ) (i : UInner (ZMod p)) (hi : ∀ x, i ≠ .ident x) : Ends (Flt.flattenUI w i : FlatM p Z _) := by
  cases i
  case xor l r =>
    exact flattenUI_xor_cases w l r (fun m => Ends m) (fun o m h => .bind fun _ => h) (fun _ _ _ _ _ _ _ _ _ _ _ => .threeBits _ _ _ _)
      (fun _ _ _ _ _ _ _ _ _ _ _ _ _ => .threeBits _ _ _ _) (.defaultXor _ _)
  all_goals rw [Flt.flattenUI]
  case value => exact .pure rfl
  case ident x => exact absurd rfl (hi x)
  case select => exact .bind fun _ => .selFinish _
  case add => exact .bind fun _ => .pure rfl
  case sub => exact .bind fun _ => .bind fun _ => .pure rfl
  case mult => exact .bind fun _ => .bind fun _ => .pure rfl
  case div => exact .bind fun _ => .bind fun _ => .bind fun _ => .bind fun _ => .bind fun _ => .pure rfl
  case rem => exact .bind fun _ => .bind fun _ => .bind fun _ => .bind fun _ => .bind fun _ => .pure rfl
  case and => exact .bitwise _ _ _ _
  case or => exact .bitwise _ _ _ _
  case leftShift =>
    split
    · exact .bind fun _ => .bind fun _ => .bind fun _ => .pure rfl
    · exact .panic
  case rightShift =>
    split
    · exact .bind fun _ => .bind fun _ => .bind fun _ => .pure rfl
    · exact .panic
  case not => exact .bind fun _ => .bind fun _ => .bind fun _ => .bind fun _ => .pure rfl
  case cond => exact .conditional

/-- The same for variables, whose bits come from the cache. -/
theorem ident_ends (w : ℕ) (x : ZId) {st st' : FlState p Z} {u : FlatU p} (hi : PInv L T st)
    (h : Flt.flattenUI w (.ident x) st = some (u, st')) : T → u.exact = true := by
  intro hT
  rw [Flt.flattenUI] at h
  obtain ⟨v, st1, h1, h2⟩ := FlatM.bind_some h
  have hi1 := lookup (L := L) (T := T) x st v st1 h1 hi
  obtain ⟨c, st2, h3, h4⟩ := FlatM.bind_some h2
  cases h3
  cases hc : st1.cache (.ident v) with
  | none =>
    rw [hc] at h4
    cases h4; rfl
  | some c =>
    rw [hc] at h4
    obtain ⟨_, st3, _, h6⟩ := FlatM.bind_some h4
    cases h6
    exact hi1.exact hT _ _ hc (fun _ h => by cases h)

theorem uTail_ends (w : ℕ) (max : ZMod p) (b : Bool) (u : FlatU p) (h : u.exact = true) : Ends (Flt.uTail w max b u : FlatM p Z _) := by
  unfold Flt.uTail
  split
  · refine .bind fun _ => ?_
    split
    · exact .pure rfl
    · exact .bind fun _ => .pure rfl
  · exact .pure h

theorem flattenZ_exact (e : ZExpr (ZMod p)) {st st' : FlState p Z} {u : FlatU p} (hi : PInv L T st)
    (h : Flt.flattenZ e st = some (u, st')) : T → u.exact = true := by
  intro hT
  cases e with
  | field e =>
    unfold Flt.flattenZ at h
    exact (Ends.bind fun _ => .pure rfl) _ _ _ h
  | bool e =>
    unfold Flt.flattenZ at h
    exact (Ends.bind fun _ => .pure rfl) _ _ _ h
  | uint e =>
    obtain ⟨w, m, i⟩ := e
    unfold Flt.flattenZ Flt.flattenU at h
    obtain ⟨⟨mx, b⟩, st1, h1, h2⟩ := FlatM.bind_some h
    obtain ⟨u1, st2, h3, h4⟩ := FlatM.bind_some h2
    have hi1 := readInfo (L := L) (T := T) m _ _ _ h1 hi
    refine uTail_ends w mx b u1 ?_ _ _ _ h4
    by_cases hx : ∃ x, i = .ident x
    · obtain ⟨x, rfl⟩ := hx
      exact ident_ends w x hi1 h3 hT
    · exact Ends.flattenUI w i (fun x h => hx ⟨x, h⟩) _ _ _ h3

theorem definition (x) (e : ZExpr (ZMod p)) (h : T → e.NoWrap) : Pre L T (Flt.flattenStmt (.definition x e) : FlatM p Z _) := by
  rw [Flt.flattenStmt]
  intro st a st' hm hi
  obtain ⟨u, st1, h1, h2⟩ := FlatM.bind_some hm
  have hu := flattenZ_exact e hi h1
  refine (bind (getField _) fun _ => bind (bindVar _ _) fun _ => ?_ : Pre L T _) _ _ _ h2 (flattenZ e h _ _ _ h1 hi)
  split
  · exact setCache _ _ fun hT _ => hu hT
  · exact pure _

theorem multiDef (xs e g a) (h : T → ∀ e ∈ a, e.NoWrap) : Pre L T (Flt.flattenStmt (.multiDef xs e g a) : FlatM p Z _) := by
  rw [Flt.flattenStmt]
  refine bind (embedCall _ _ _ h) fun _ => bind (assert _) fun _ => bind (bindVars _ _) fun _ => ?_
  split
  · exact bind (flattenZs _ h) fun _ => bind (unwrap _) fun _ => setCache _ _ fun _ _ => rfl
  · exact pure _

mutual
theorem flattenStmt : ∀ s, (L → ZStmt.NoAsm s) → (T → ZStmt.NoWrap s) → Pre L T (Flt.flattenStmt s : FlatM p Z _)
  | .ret es, _, hw => by
    rw [Flt.flattenStmt]
    exact bind (flattenZs _ fun hT => by have := hw hT; rwa [ZStmt.NoWrap] at this) fun _ => emitAll _
  | .assembly ss, hl, hw => by
    rw [Flt.flattenStmt]
    exact inBlock (fun h => by have := hl h; rwa [ZStmt.NoAsm] at this)
      (flattenAsms _ fun hT => by have := hw hT; rwa [ZStmt.NoWrap] at this)
  | .ifElse c t e, hl, hw => by
    rw [Flt.flattenStmt]
    have h1 : L → ZStmt.NoAsmL t ∧ ZStmt.NoAsmL e := fun h => by have := hl h; rwa [ZStmt.NoAsm] at this
    have h2 : T → c.NoWrap ∧ ZStmt.NoWrapL t ∧ ZStmt.NoWrapL e := fun h => by have := hw h; rwa [ZStmt.NoWrap] at this
    exact bind (flattenB _ fun h => (h2 h).1) fun _ => bind (newDef _) fun _ =>
      bind (flattenStmts t (fun h => (h1 h).1) fun h => (h2 h).2.1) fun _ =>
      flattenStmts e (fun h => (h1 h).2) fun h => (h2 h).2.2
  | .definition x e, _, hw => definition x e fun hT => by have := hw hT; rwa [ZStmt.NoWrap] at this
  | .assertion e err, _, hw => by
    rw [Flt.flattenStmt]
    exact assertions _ _ fun hT => conjuncts_noWrap (by have := hw hT; rwa [ZStmt.NoWrap] at this)
  | .multiDef xs e g a, _, hw => multiDef xs e g a fun hT => by have := hw hT; rwa [ZStmt.NoWrap] at this
  | .log es, _, hw => by
    rw [Flt.flattenStmt]
    exact bind (flattenLog _ fun hT => by have := hw hT; rwa [ZStmt.NoWrap] at this) fun _ => emit _
theorem flattenStmts : ∀ ss, (L → ZStmt.NoAsmL ss) → (T → ZStmt.NoWrapL ss) → Pre L T (Flt.flattenStmts ss : FlatM p Z _)
  | [], _, _ => pure _
  | s :: ss, hl, hw => by
    rw [Flt.flattenStmts]
    have h1 : L → ZStmt.NoAsm s ∧ ZStmt.NoAsmL ss := fun h => by have := hl h; rwa [ZStmt.NoAsmL] at this
    have h2 : T → ZStmt.NoWrap s ∧ ZStmt.NoWrapL ss := fun h => by have := hw h; rwa [ZStmt.NoWrapL] at this
    exact bind (flattenStmt s (fun h => (h1 h).1) fun h => (h2 h).1) fun _ =>
      flattenStmts ss (fun h => (h1 h).2) fun h => (h2 h).2
end

theorem useParameter (q) : Pre L T (Flt.useParameter q : FlatM p Z _) := by
  unfold Flt.useParameter
  refine bind (useVariable _) fun _ => bind ?_ fun _ => pure _
  split
  · exact bind (getBits _ _ _ _) fun _ => pure _
  · exact emit _
  · exact pure _

theorem useParameters (qs) : Pre L T (Flt.useParameters qs : FlatM p Z _) := by
  induction qs with
  | nil => exact pure _
  | cons e es ih => exact bind (useParameter e) fun _ => bind ih fun _ => pure _

theorem flattenFun (f : ZFun (ZMod p) Z) (hl : L → ZStmt.NoAsmL f.body) (hw : T → ZStmt.NoWrapL f.body) :
    Pre L T (Flt.flattenFun f) := by
  unfold Flt.flattenFun
  exact bind (useParameters _) fun _ => bind (flattenStmts _ hl hw) fun _ => pure _


end Pre

theorem fromProgram_inv {f : ZFun (ZMod p) Z} {args : List Parameter} {ss : List (FlatStmt (ZMod p) Z)} {cl : Bool}
    (h : fromProgram f = some (args, ss, cl)) (hl : L → ZStmt.NoAsmL f.body) (hw : T → ZStmt.NoWrapL f.body) :
    (L → ∀ s ∈ ss, s.NotBlock) ∧ (T → cl = false) := by
  unfold fromProgram at h
  cases hf : Flt.flattenFun f (FlState.init p Z) with
  | none => rw [hf] at h; cases h
  | some t =>
    rw [hf] at h
    cases h
    have := Pre.flattenFun f hl hw _ _ _ hf ⟨(fun _ s hs => by cases hs), fun _ => rfl, fun _ f c hc => by cases hc⟩
    exact ⟨this.leaf, this.clash⟩

theorem FlatStmt.toIr_leaf {s : FlatStmt (ZMod p) Z} (hs : s.NotBlock) {t : Stmt (ZMod p) Z} (h : s.toIr = some t) :
    t.IsLeaf := by
  cases s <;> simp only [FlatStmt.toIr] at h
  case block => exact hs.elim
  all_goals
    repeat' split at h
    all_goals first | (cases h; done) | (cases h; trivial)

theorem toIrL_leaf {ss : List (FlatStmt (ZMod p) Z)} (hs : ∀ s ∈ ss, s.NotBlock) {ts : List (Stmt (ZMod p) Z)}
    (h : FlatStmt.toIrL ss = some ts) : ∀ t ∈ ts, t.IsLeaf := by
  induction ss generalizing ts with
  | nil => rw [FlatStmt.toIrL] at h; cases h; intro t ht; cases ht
  | cons s ss ih =>
    rw [FlatStmt.toIrL] at h
    split at h
    · rename_i s' ss' h1 h2
      cases h
      intro t ht
      rcases List.mem_cons.1 ht with rfl | ht
      · exact FlatStmt.toIr_leaf (hs s (by simp)) h1
      · exact ih (fun u hu => hs u (by simp [hu])) h2 t ht
    · cases h

theorem lower_leaf {f : ZFun (ZMod p) Z} (hl : ZStmt.NoAsmL f.body) {P : Prog (ZMod p) Z} {cl : Bool}
    (h : lowerProgram f = some (P, cl)) : ∀ s ∈ P.statements, s.IsLeaf := by
  unfold lowerProgram at h
  split at h
  · cases h
  · rename_i args ss c hf
    split at h
    · cases h
    · rename_i ts ht
      cases h
      have := (fromProgram_inv (L := True) (T := False) hf (fun _ => hl) (fun h => h.elim)).1 trivial
      exact toIrL_leaf this ht

theorem lower_noClash {f : ZFun (ZMod p) Z} (hw : ZStmt.NoWrapL f.body) {P : Prog (ZMod p) Z} {cl : Bool}
    (h : lowerProgram f = some (P, cl)) : cl = false := by
  unfold lowerProgram at h
  split at h
  · cases h
  · rename_i args ss c hf
    split at h
    · cases h
    · cases h
      exact (fromProgram_inv (L := False) (T := True) hf (fun h => h.elim) (fun _ => hw)).2 trivial

end Zok
