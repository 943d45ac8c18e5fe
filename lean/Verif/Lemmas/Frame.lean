import Verif.Lemmas.Gadgets2

/-
Actions that do not look at the cache: their result and the statements they emit do not depend on it.
-/

set_option linter.unusedSectionVars false

namespace Zok
variable {p : ℕ} {Z : Type} [Fact p.Prime]
variable {ρ : Assignment (ZMod p)} {α β : Type}

/-- The action does not depend on the cache and does not record clashes. -/
def Indep (m : FlatM p Z α) : Prop :=
  ∀ st st0, st0.next = st.next → st0.out = st.out → st0.layout = st.layout → ∀ a st', m st = some (a, st') →
    ∃ st0', m st0 = some (a, st0') ∧ st0'.next = st'.next ∧ st0'.out = st'.out ∧ st0'.layout = st'.layout ∧
      st0'.clash = st0.clash

namespace Indep
variable {m : FlatM p Z α} {f : α → FlatM p Z β}

theorem _root_.Zok.FlatM.bind_some' {m : FlatM p Z α} {f : α → FlatM p Z β} {st st' : FlState p Z} {b : β}
    (h : (m >>= f) st = some (b, st')) : ∃ a st1, m st = some (a, st1) ∧ f a st1 = some (b, st') := by
  have hm' : (m st).bind (fun t => f t.1 t.2) = some (b, st') := h
  cases h1 : m st with
  | none => rw [h1] at hm'; cases hm'
  | some t => rw [h1] at hm'; exact ⟨t.1, t.2, rfl, hm'⟩

theorem bind (hm : Indep m) (hf : ∀ a, Indep (f a)) : Indep (m >>= f) := by
  intro st st0 h1 h2 h3 b st' h
  obtain ⟨a, st1, ha, hb⟩ := FlatM.bind_some' h
  obtain ⟨s1, hs, e1, e2, e3, e4⟩ := hm st st0 h1 h2 h3 a st1 ha
  obtain ⟨s2, hs2, g1, g2, g3, g4⟩ := hf a st1 s1 e1 e2 e3 b st' hb
  refine ⟨s2, ?_, g1, g2, g3, g4.trans e4⟩
  show (m st0).bind (fun t => f t.1 t.2) = _
  rw [hs]; exact hs2

theorem pure (a : α) : Indep (Pure.pure a : FlatM p Z α) := by
  intro st st0 h1 h2 h3 b st' h
  have : some (a, st) = some (b, st') := h
  cases this
  exact ⟨st0, rfl, h1, h2, h3, rfl⟩

theorem panic : Indep (Flt.panic : FlatM p Z α) := by intro st st0 _ _ _ b st' h; cases h

theorem emit (s : FlatStmt (ZMod p) Z) : Indep (Flt.emit s) := by
  intro st st0 h1 h2 h3 b st' h
  cases h
  exact ⟨_, rfl, h1, by simp [h2], h3, rfl⟩

theorem emitAll (s : List (FlatStmt (ZMod p) Z)) : Indep (Flt.emitAll s) := by
  intro st st0 h1 h2 h3 b st' h
  cases h
  exact ⟨_, rfl, h1, by simp [h2], h3, rfl⟩

theorem useSym : Indep (Flt.useSym : FlatM p Z _) := by
  intro st st0 h1 h2 h3 b st' h
  cases h
  exact ⟨{ st0 with next := st0.next + 1 }, by unfold Flt.useSym; rw [h1], by simp [h1], h2, h3, rfl⟩

theorem setCache (e : FlatExpr (ZMod p)) (c : CacheEntry p) : Indep (Flt.setCache e c : FlatM p Z _) := by
  intro st st0 h1 h2 h3 b st' h
  cases h
  exact ⟨_, rfl, h1, h2, h3, rfl⟩

theorem assert (b : Bool) : Indep (Flt.assert b : FlatM p Z _) := by
  unfold Flt.assert
  split
  · exact pure _
  · exact panic

theorem ite {b : Prop} [Decidable b] {m1 m2 : FlatM p Z α} (h1 : Indep m1) (h2 : Indep m2) :
    Indep (if b then m1 else m2) := by
  split
  · exact h1
  · exact h2

theorem define (e : FlatExpr (ZMod p)) : Indep (Flt.define e : FlatM p Z _) := by
  unfold Flt.define
  split
  · exact pure _
  · exact bind useSym fun _ => bind (emit _) fun _ => pure _

theorem defineAll (es : List (FlatExpr (ZMod p))) : Indep (Flt.defineAll es : FlatM p Z _) := by
  induction es with
  | nil => exact pure _
  | cons e es ih => exact bind (define e) fun _ => bind ih fun _ => pure _

theorem linearise (e : FlatExpr (ZMod p)) : Indep (Flt.linearise e : FlatM p Z _) := by
  unfold Flt.linearise
  exact ite (pure _) (bind useSym fun _ => bind (emit _) fun _ => pure _)

theorem newDef (e : FlatExpr (ZMod p)) : Indep (Flt.newDef e : FlatM p Z _) :=
  bind useSym fun _ => bind (emit _) fun _ => pure _

theorem useSyms (n : ℕ) : Indep (Flt.useSyms n : FlatM p Z _) := by
  induction n with
  | zero => exact pure _
  | succ n ih => exact bind useSym fun _ => bind ih fun _ => pure _

theorem leSyms (n : ℕ) : Indep (Flt.leSyms n : FlatM p Z _) := by
  induction n with
  | zero => exact pure _
  | succ n ih => exact bind useSym fun _ => bind useSym fun _ => bind ih fun _ => pure _

theorem leLoop (l : List (FlatExpr (ZMod p) × Bool × Variable × Variable)) : Indep (Flt.leLoop l : FlatM p Z _) := by
  induction l with
  | nil => exact pure _
  | cons t l ih =>
    obtain ⟨a, b, nsr, su⟩ := t
    cases b
    · unfold Flt.leLoop
      refine bind ?_ fun _ => bind useSym fun _ => bind (emit _) fun _ => bind ih fun _ => pure _
      split
      · exact emit _
      · exact pure _
    · unfold Flt.leLoop
      refine bind (emit _) fun _ => bind ?_ fun _ => ih
      split
      · exact emit _
      · exact pure _

theorem constantLeCheck (a : List (FlatExpr (ZMod p))) (b : List Bool) :
    Indep (Flt.constantLeCheck a b : FlatM p Z _) := by
  unfold Flt.constantLeCheck
  refine bind (assert _) fun _ => ite (bind (defineAll _) fun _ => bind (emitAll _) fun _ => pure _)
    (bind (leSyms _) fun _ => bind ?_ fun _ => leLoop _)
  split
  · exact emit _
  · exact panic

theorem eqCheck (l r : FlatExpr (ZMod p)) : Indep (Flt.eqCheck l r : FlatM p Z _) :=
  bind (define l) fun _ => bind (define r) fun _ => bind useSym fun _ => bind useSym fun _ => bind (emit _) fun _ =>
    bind (emit _) fun _ => bind (emit _) fun _ => pure _

theorem enforceLeBits (a : List (FlatExpr (ZMod p))) (b : List Bool) (err : RuntimeError) :
    Indep (Flt.enforceLeBits a b err : FlatM p Z _) := bind (constantLeCheck a b) fun _ => emit _

theorem freshBits (f : FlatExpr (ZMod p)) (a b : ℕ) (err : RuntimeError) :
    Indep (Flt.freshBits f a b err : FlatM p Z _) := by
  unfold Flt.freshBits
  exact bind (useSyms _) fun _ => bind (emit _) fun _ => bind (emitAll _) fun _ => bind (emit _) fun _ =>
    bind (setCache _ _) fun _ => bind (setCache _ _) fun _ => pure _

theorem divFlat (l r : FlatExpr (ZMod p)) : Indep (Flt.divFlat l r : FlatM p Z _) :=
  bind (newDef _) fun _ => bind (newDef _) fun _ => bind useSym fun _ => bind (emit _) fun _ => bind (emit _) fun _ =>
    pure _

theorem boolOr (l r : FlatExpr (ZMod p)) : Indep (Flt.boolOr l r : FlatM p Z _) :=
  bind (assert _) fun _ => bind useSym fun _ => bind (emit _) fun _ => bind (emit _) fun _ => pure _

theorem conditional {c t e : FlatM p Z (FlatExpr (ZMod p))} (hc : Indep c) (ht : Indep t) (he : Indep e) :
    Indep (Flt.conditional c t e) := by
  unfold Flt.conditional
  exact bind hc fun _ => bind (newDef _) fun _ => bind ht fun _ => bind he fun _ => bind (newDef _) fun _ =>
    bind (newDef _) fun _ => bind (newDef _) fun _ => bind (newDef _) fun _ => bind (newDef _) fun _ => pure _

theorem selFold (l : List (FlatExpr (ZMod p) × FlatExpr (ZMod p))) (rc res : FlatExpr (ZMod p)) :
    Indep (Flt.selFold l rc res : FlatM p Z _) := by
  induction l generalizing rc res with
  | nil => exact pure _
  | cons t l ih => exact bind (newDef _) fun _ => ih _ _

theorem selFinish (l : List (FlatExpr (ZMod p) × FlatExpr (ZMod p))) : Indep (Flt.selFinish l : FlatM p Z _) := by
  unfold Flt.selFinish
  refine bind (selFold _ _ _) fun t => ?_
  exact bind (emit _) fun _ => pure _

/-- Such actions are sound without any assumption on the cache. -/
theorem sound {pre E : Prop} {P : α → Prop} {st st' : FlState p Z} {a : α} (hi : Indep m)
    (hs : Sound ρ st.layout E pre m P) (hpre : pre) (h : m st = some (a, st')) (hsat : SatF ρ st'.out) : E ∨ P a := by
  obtain ⟨s, h1, _, h3, _, h5⟩ := hi st { st with cache := fun _ => none, clash := false } rfl rfl rfl a st' h
  obtain ⟨_, _, _, h6⟩ := hs { st with cache := fun _ => none, clash := false } a s rfl h1
  exact (h6 hpre (fun f c hc => by cases hc) (by rw [h3]; exact hsat) (by rw [h5])).imp id And.right

end Indep
end Zok
