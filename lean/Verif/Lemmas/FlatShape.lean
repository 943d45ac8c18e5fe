import Verif.Lemmas.FlatMono
import Verif.Spec.ZirExec

/-
The shape of flattened integer expressions: only constants are flattened to constants.
-/

set_option linter.unusedSectionVars false
set_option linter.unusedVariables false

namespace Zok
variable {p : ℕ} {Z : Type} [Fact p.Prime] {α β : Type}

/-- Every result of the action satisfies `P`. -/
def Post (m : FlatM p Z α) (P : α → Prop) : Prop := ∀ st a st', m st = some (a, st') → P a

namespace Post
variable {m : FlatM p Z α} {P Q : α → Prop} {f : α → FlatM p Z β} {R : β → Prop}

theorem bind (h : Post m P) (hf : ∀ a, P a → Post (f a) R) : Post (m >>= f) R := by
  intro st b st' hm
  obtain ⟨a, st1, h1, h2⟩ := FlatM.bind_some hm
  exact hf a (h _ _ _ h1) _ _ _ h2

theorem any : Post m (fun _ => True) := fun _ _ _ _ => trivial

theorem bind_any (hf : ∀ a, Post (f a) R) : Post (m >>= f) R := bind any fun a _ => hf a

theorem pure {a : α} (h : P a) : Post (Pure.pure a : FlatM p Z α) P := by
  intro st b st' hm
  have : some (a, st) = some (b, st') := hm
  cases this; exact h

theorem panic : Post (Flt.panic : FlatM p Z α) P := by intro st b st' hm; cases hm

end Post

/-- Fields that are constants come from constants. -/
def ConstShape (i : UInner (ZMod p)) (u : FlatU p) : Prop :=
  ∀ c, u.field = some (.value c) → (UExpr.mk 0 none i).isConst = true

theorem constShape_none {i : UInner (ZMod p)} {bs : List (FlatExpr (ZMod p))} : ConstShape i (Flt.withBits bs) := by
  intro c h; cases h

theorem post_defaultXor {i : UInner (ZMod p)} (l r : FlatM p Z (FlatU p)) : Post (Flt.defaultXor l r) (ConstShape i) := by
  unfold Flt.defaultXor
  exact Post.bind_any fun _ => Post.bind_any fun _ => Post.bind_any fun _ => Post.bind_any fun _ =>
    Post.bind_any fun _ => Post.pure constShape_none

theorem post_threeBits {i : UInner (ZMod p)} (f) (a b c : FlatM p Z (FlatU p)) :
    Post (Flt.threeBits f a b c) (ConstShape i) := by
  unfold Flt.threeBits
  exact Post.bind_any fun _ => Post.bind_any fun _ => Post.bind_any fun _ => Post.bind_any fun _ =>
    Post.bind_any fun _ => Post.bind_any fun _ => Post.bind_any fun _ => Post.pure constShape_none

theorem post_bitwise {i : UInner (ZMod p)} (w f) (a b : FlatM p Z (FlatU p)) :
    Post (Flt.bitwise w f a b) (ConstShape i) := by
  unfold Flt.bitwise
  exact Post.bind_any fun _ => Post.bind_any fun _ => Post.bind_any fun _ => Post.bind_any fun _ =>
    Post.bind_any fun _ => Post.bind_any fun _ => Post.bind_any fun _ => Post.pure constShape_none

theorem constShape_of_not {i : UInner (ZMod p)} {e : FlatExpr (ZMod p)} (h : ∀ c, e ≠ .value c) :
    ConstShape i (Flt.withField e) := by
  intro c hc
  cases hc
  exact absurd rfl (h c)

theorem selFold_add (l : List (FlatExpr (ZMod p) × FlatExpr (ZMod p))) (rc res : FlatExpr (ZMod p))
    (h : ∀ c, res ≠ .value c) : Post (Flt.selFold l rc res : FlatM p Z _) (fun t => ∀ c, t.2 ≠ .value c) := by
  induction l generalizing rc res with
  | nil => exact Post.pure h
  | cons a l ih =>
    obtain ⟨k, v⟩ := a
    rw [Flt.selFold]
    exact Post.bind_any fun _ => ih _ _ (by intro c; simp)

theorem post_flattenUI (w : ℕ) (i : UInner (ZMod p)) : Post (Flt.flattenUI w i : FlatM p Z _) (ConstShape i) := by
  cases i with
  | value n => rw [Flt.flattenUI]; exact Post.pure fun c _ => by simp [UExpr.isConst]
  | ident x =>
    rw [Flt.flattenUI]
    refine Post.bind_any fun v => Post.bind_any fun c => ?_
    split
    · exact Post.pure (constShape_of_not (by intro c; simp))
    · refine Post.bind_any fun _ => Post.pure ?_
      intro c h; cases h
  | select es i =>
    rw [Flt.flattenUI, flattenSelU_eq]
    refine Post.bind (P := fun l => es ≠ [] → l ≠ []) ?_ fun l hl => ?_
    · cases es with
      | nil => exact fun _ _ _ _ h => absurd rfl h
      | cons e es =>
        rw [selGen]
        exact Post.bind_any fun _ => Post.bind_any fun _ => Post.bind_any fun _ => Post.pure fun _ => by simp
    · unfold Flt.selFinish
      cases es with
      | nil => exact fun _ _ _ _ c _ => by simp [UExpr.isConst]
      | cons e es =>
        cases l with
        | nil => exact absurd rfl (hl (by simp))
        | cons a l =>
          obtain ⟨k, v⟩ := a
          rw [Flt.selFold]
          refine Post.bind (P := fun t => ∀ c, t.2 ≠ .value c) ?_ fun t ht => Post.bind_any fun _ => Post.pure
            (constShape_of_not ht)
          exact Post.bind_any fun _ => selFold_add _ _ _ (by intro c; simp)
  | not e =>
    rw [Flt.flattenUI]
    exact Post.bind_any fun _ => Post.bind_any fun _ => Post.bind_any fun _ => Post.bind_any fun _ =>
      Post.pure constShape_none
  | add l r =>
    rw [Flt.flattenUI]
    exact Post.bind_any fun _ => Post.pure (constShape_of_not (by intro c; simp))
  | sub l r =>
    rw [Flt.flattenUI]
    exact Post.bind_any fun _ => Post.bind_any fun _ => Post.pure (constShape_of_not (by intro c; simp))
  | leftShift e b =>
    rw [Flt.flattenUI]
    split
    · exact Post.bind_any fun _ => Post.bind_any fun _ => Post.bind_any fun _ => Post.pure constShape_none
    · exact Post.panic
  | rightShift e b =>
    rw [Flt.flattenUI]
    split
    · exact Post.bind_any fun _ => Post.bind_any fun _ => Post.bind_any fun _ => Post.pure constShape_none
    · exact Post.panic
  | mult l r =>
    rw [Flt.flattenUI]
    exact Post.bind_any fun _ => Post.bind_any fun _ => Post.pure (constShape_of_not (by intro c; simp))
  | div l r =>
    rw [Flt.flattenUI]
    exact Post.bind_any fun _ => Post.bind_any fun _ => Post.bind_any fun _ => Post.bind_any fun _ =>
      Post.bind_any fun _ => Post.pure (constShape_of_not (by intro c; simp))
  | rem l r =>
    rw [Flt.flattenUI]
    exact Post.bind_any fun _ => Post.bind_any fun _ => Post.bind_any fun _ => Post.bind_any fun _ =>
      Post.bind_any fun _ => Post.pure (constShape_of_not (by intro c; simp))
  | cond c t e =>
    rw [Flt.flattenUI]
    unfold Flt.conditional
    exact Post.bind_any fun _ => Post.bind_any fun _ => Post.bind_any fun _ => Post.bind_any fun _ =>
      Post.bind_any fun _ => Post.bind_any fun _ => Post.bind_any fun _ => Post.bind_any fun _ => Post.bind_any fun _ =>
      Post.pure (constShape_of_not (by intro c; simp))
  | xor l r =>
    exact flattenUI_xor_cases w l r (fun m => Post m (ConstShape (.xor l r))) (fun o m h => Post.bind_any fun _ => h)
      (fun _ _ _ _ _ _ _ _ _ _ _ => post_threeBits _ _ _ _) (fun _ _ _ _ _ _ _ _ _ _ _ _ _ => post_threeBits _ _ _ _)
      (post_defaultXor _ _)
  | and l r => rw [Flt.flattenUI]; exact post_bitwise _ _ _ _
  | or l r => rw [Flt.flattenUI]; exact post_bitwise _ _ _ _

theorem foldBits_value {w : ℕ} {bits : List (FlatExpr (ZMod p))} {c : ZMod p} (h : Flt.foldBits w bits = .value c) :
    bits = [] := by
  unfold Flt.foldBits at h
  rcases List.eq_nil_or_concat bits with rfl | ⟨l, b, rfl⟩
  · rfl
  · simp [List.zipIdx_append] at h

theorem flatFromBits_value {bits : List (FlatExpr (ZMod p))} {c : ZMod p} (h : flatFromBits bits = .value c) :
    bits = [] := by
  unfold flatFromBits at h
  by_contra hne
  have : withPowers bits.reverse ≠ [] := by
    unfold withPowers
    intro h0
    simp at h0
    exact hne h0
  rw [flatSummands.eq_def] at h
  split at h
  · contradiction
  · cases h
  · cases h

/-- A flattened reduced integer whose field is a constant is a constant (or has no bits). -/
theorem post_flattenU (e : UExpr (ZMod p)) (hr : e.Reduced) :
    Post (Flt.flattenU e : FlatM p Z _)
      (fun u => ∀ c, u.field = some (.value c) → e.isConst = true ∨ u.bits = some []) := by
  obtain ⟨w, m, i⟩ := e
  obtain ⟨m', hm', hy⟩ := hr
  simp only [UExpr.info] at hm'
  subst hm'
  rw [Flt.flattenU]
  have hri : (Flt.readInfo (some m') : FlatM p Z _) = pure (m'.max, true) := by
    unfold Flt.readInfo Flt.unwrap
    simp [ShouldReduce.toBool?, hy]
  rw [hri, pure_bind]
  refine Post.bind (post_flattenUI w i) fun u hu => ?_
  have hic : (UExpr.mk 0 none i).isConst = (UExpr.mk w (some m') i).isConst := by
    cases i <;> first | rfl | (rename_i a b; cases a <;> rfl)
  unfold Flt.uTail
  simp only [if_true]
  intro st a st' hm
  obtain ⟨bits, st1, h1, h2⟩ := FlatM.bind_some hm
  split at h2
  · have := (Post.pure (p := p) (Z := Z) (P := fun a => a = ⟨some (Flt.foldBits w bits), some bits, true⟩) rfl) _ _ _ h2
    subst this
    intro c hc
    have := foldBits_value (Option.some.inj hc)
    right; simp [this]
  · obtain ⟨f, st2, h3, h4⟩ := FlatM.bind_some h2
    have := (Post.pure (p := p) (Z := Z) (P := fun a => a = ⟨some f, some bits, true⟩) rfl) _ _ _ h4
    subst this
    intro c hc
    simp only [Option.some.injEq] at hc
    subst hc
    obtain ⟨field, ubits, ex⟩ := u
    cases field with
    | some g =>
      unfold Flt.getField at h3
      have := (Post.pure (p := p) (Z := Z) (P := fun a => a = g) rfl) _ _ _ h3
      subst this
      exact Or.inl (hic ▸ hu c rfl)
    | none =>
      cases ubits with
      | none => cases h3
      | some bs =>
        unfold Flt.getField at h3
        have := (Post.pure (p := p) (Z := Z) (P := fun a => a = flatFromBits bs) rfl) _ _ _ h3
        have hbs := flatFromBits_value this.symm
        subst hbs
        unfold Flt.getBits at h1
        obtain ⟨_, _, _, h1⟩ := FlatM.bind_some h1
        obtain ⟨_, _, _, h1⟩ := FlatM.bind_some h1
        have := (Post.pure (p := p) (Z := Z) (P := fun a => a = []) rfl) _ _ _ h1
        right; rw [this]

end Zok
