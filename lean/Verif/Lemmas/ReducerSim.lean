import Verif.Lemmas.ReducerSlice
import Verif.Lemmas.TypedPropShape
import Verif.Lemmas.ConditionRedefinerStmt

/-
The reducer: what it means that the statements it emits do what the source does, and how such facts are composed.
-/

set_option linter.unusedSectionVars false
set_option linter.unusedSimpArgs false

namespace Zok.Typed
open Abi
variable {p : ℕ} [Fact p.Prime] {Z : Type} {O : Oracle p Z} {α β : Type} {A B : Prop}

/-- An assertion fails when the statements are executed. -/
def AF (O : Oracle p Z) (τ : TState p) (ss : List (TStmt (ZMod p))) : Prop :=
  ∃ pre e err post τ', ss = pre ++ .assertion e err :: post ∧ ExecTs O τ pre (.ok τ') ∧ evalT τ'.env e = .ok (.bool false)

theorem AF.left {τ : TState p} {ss ts : List (TStmt (ZMod p))} (h : AF O τ ss) : AF O τ (ss ++ ts) := by
  obtain ⟨pre, e, err, post, τ', rfl, h1, h2⟩ := h
  exact ⟨pre, e, err, post ++ ts, τ', by simp, h1, h2⟩

theorem AF.right {τ τ1 : TState p} {ss ts : List (TStmt (ZMod p))} (h0 : ExecTs O τ ss (.ok τ1)) (h : AF O τ1 ts) : AF O τ (ss ++ ts) := by
  obtain ⟨pre, e, err, post, τ', rfl, h1, h2⟩ := h
  exact ⟨ss ++ pre, e, err, post, τ', by simp, h0.append h1, h2⟩

/-- The statements `ss`, executed in the state `τ`, do what a computation with the outcomes `X` does: `Q` relates its results to the states behind the statements. -/
structure RSim (O : Oracle p Z) (A B : Prop) (τ : TState p) (X : Except Fault α → Prop) (ss : List (TStmt (ZMod p))) (Q : α → TState p → Prop) : Prop where
  fwd : A → ∀ a, X (.ok a) → ∃ τ', ExecTs O τ ss (.ok τ') ∧ Q a τ'
  bwd : B → ∀ τ', ExecTs O τ ss (.ok τ') → (∃ a, X (.ok a) ∧ Q a τ') ∨ ∃ e, X (.error e)
  err : B → ∀ e, ExecTs O τ ss (.error e) → ∃ e', X (.error e')
  asr : A → X (.error .assertionFailed) → AF O τ ss

/-- One computation after the other. -/
def bindX (X : Except Fault α → Prop) (Y : α → Except Fault β → Prop) (r : Except Fault β) : Prop := (∃ e, X (.error e) ∧ r = .error e) ∨ ∃ a, X (.ok a) ∧ Y a r

theorem RSim.seq {τ : TState p} {X : Except Fault α → Prop} {Y : α → Except Fault β → Prop} {ss ts : List (TStmt (ZMod p))} {Q : α → TState p → Prop} {R : β → TState p → Prop}
    (h : RSim O A B τ X ss Q) (h' : ∀ a τ1, X (.ok a) → ExecTs O τ ss (.ok τ1) → Q a τ1 → RSim O A B τ1 (Y a) ts R) : RSim O A B τ (bindX X Y) (ss ++ ts) R where
  fwd := by
    rintro hA b (⟨e, -, h0⟩ | ⟨a, h1, h2⟩)
    · cases h0
    · obtain ⟨τ1, g1, g2⟩ := h.fwd hA a h1
      obtain ⟨τ2, g3, g4⟩ := (h' a τ1 h1 g1 g2).fwd hA b h2
      exact ⟨τ2, g1.append g3, g4⟩
  bwd := by
    intro hB τ' hx
    rcases hx.split with ⟨τ1, g1, g2⟩ | ⟨e, g1, -⟩
    · rcases h.bwd hB τ1 g1 with ⟨a, k1, k2⟩ | ⟨e, k1⟩
      · rcases (h' a τ1 k1 g1 k2).bwd hB τ' g2 with ⟨b, k3, k4⟩ | ⟨e, k3⟩
        · exact .inl ⟨b, .inr ⟨a, k1, k3⟩, k4⟩
        · exact .inr ⟨e, .inr ⟨a, k1, k3⟩⟩
      · exact .inr ⟨e, .inl ⟨e, k1, rfl⟩⟩
    · cases g1
  err := by
    intro hB e hx
    rcases hx.split with ⟨τ1, g1, g2⟩ | ⟨e, -, g2⟩
    · rcases h.bwd hB τ1 g1 with ⟨a, k1, k2⟩ | ⟨e, k1⟩
      · obtain ⟨e', k3⟩ := (h' a τ1 k1 g1 k2).err hB e g2
        exact ⟨e', .inr ⟨a, k1, k3⟩⟩
      · exact ⟨e, .inl ⟨e, k1, rfl⟩⟩
    · obtain ⟨e', k⟩ := h.err hB e g2
      exact ⟨e', .inl ⟨e', k, rfl⟩⟩
  asr := by
    rintro hA (⟨e, h1, h0⟩ | ⟨a, h1, h2⟩)
    · cases h0
      exact (h.asr hA h1).left
    · obtain ⟨τ1, g1, g2⟩ := h.fwd hA a h1
      exact .right g1 ((h' a τ1 h1 g1 g2).asr hA h2)

theorem RSim.imp {τ : TState p} {X Y : Except Fault α → Prop} {ss : List (TStmt (ZMod p))} {Q R : α → TState p → Prop} (h : RSim O A B τ X ss Q) (hX : ∀ r, X r ↔ Y r)
    (hQ : ∀ a τ', Q a τ' → R a τ') : RSim O A B τ Y ss R where
  fwd := fun hA a ha => by
    obtain ⟨τ', g1, g2⟩ := h.fwd hA a ((hX _).mpr ha)
    exact ⟨τ', g1, hQ _ _ g2⟩
  bwd := fun hB τ' hx => by
    rcases h.bwd hB τ' hx with ⟨a, k1, k2⟩ | ⟨e, k⟩
    · exact .inl ⟨a, (hX _).mp k1, hQ _ _ k2⟩
    · exact .inr ⟨e, (hX _).mp k⟩
  err := fun hB e hx => by
    obtain ⟨e', k⟩ := h.err hB e hx
    exact ⟨e', (hX _).mp k⟩
  asr := fun hA ha => h.asr hA ((hX _).mpr ha)

/-- Statements whose execution does not depend on the oracle. -/
theorem RSim.of_pure {τ : TState p} {X : Except Fault α → Prop} {ss : List (TStmt (ZMod p))} {Q : α → TState p → Prop} (hs : ∀ s ∈ ss, s.Pure) (ht : ∃ r, X r)
    (fwd : ∀ a, X (.ok a) → ∃ τ', ExecTs O τ ss (.ok τ') ∧ Q a τ') (asr : X (.error .assertionFailed) → AF O τ ss) : RSim O A B τ X ss Q where
  fwd := fun _ => fwd
  asr := fun _ => asr
  bwd := fun _ τ' h => by
    obtain ⟨r, hr⟩ := ht
    cases r with
    | error e => exact .inr ⟨e, hr⟩
    | ok a =>
      obtain ⟨τ'', h1, h2⟩ := fwd a hr
      have := h1.det (fun s h => (hs s h).free) h
      cases this
      exact .inl ⟨a, hr, h2⟩
  err := fun _ e h => by
    obtain ⟨r, hr⟩ := ht
    cases r with
    | error e => exact ⟨e, hr⟩
    | ok a =>
      obtain ⟨τ'', h1, h2⟩ := fwd a hr
      have := h1.det (fun s h => (hs s h).free) h
      cases this

/-- A computation which fails. -/
theorem RSim.fault {τ : TState p} {X : Except Fault α → Prop} {ss : List (TStmt (ZMod p))} {Q : α → TState p → Prop} {e : Fault} (h : X (.error e)) (hu : ∀ r, X r → r = .error e)
    (hn : e ≠ .assertionFailed) : RSim O A B τ X ss Q where
  fwd := fun _ a ha => by cases hu _ ha
  bwd := fun _ _ _ => .inr ⟨e, h⟩
  err := fun _ _ _ => ⟨e, h⟩
  asr := fun _ ha => by
    have := hu _ ha
    cases this
    exact absurd rfl hn

/-! ### Evaluation fails in other ways than assertions -/

/-- Not a failed assertion. -/
def NA {α : Type} (x : Except Fault α) : Prop := x ≠ .error .assertionFailed

theorem na_ok {α : Type} {a : α} : NA (.ok a) := by intro h; cases h

theorem na_bind {α β : Type} {x : Except Fault α} {f : α → Except Fault β} (hx : NA x) (hf : ∀ a, NA (f a)) : NA (x.bind f) := by
  intro h
  cases x with
  | error e => simp only [Except.bind] at h; cases h; exact hx rfl
  | ok a => exact hf a h

theorem na_asField (v : AVal (ZMod p)) : NA (asField v) := by unfold asField; split <;> (intro h; cases h)
theorem na_asBool (v : AVal (ZMod p)) : NA (asBool v) := by unfold asBool; split <;> (intro h; cases h)
theorem na_asArray (v : AVal (ZMod p)) : NA (asArray v) := by unfold asArray; split <;> (intro h; cases h)
theorem na_asUint (w : UW) (v : AVal (ZMod p)) : NA (asUint w v) := by
  unfold asUint
  split
  · split <;> (intro h; cases h)
  · intro h; cases h
theorem na_asUintOf (t : CType) (v : AVal (ZMod p)) : NA (asUintOf t v) := by
  unfold asUintOf
  split
  · exact na_asUint _ _
  · intro h; cases h
theorem na_selectVal {α : Type} (l : List α) (i : ℕ) : NA (selectVal l i) := by unfold selectVal; split <;> (intro h; cases h)
theorem na_fop (op : FOp) (a b : ZMod p) : NA (op.eval a b) := by
  unfold FOp.eval
  split <;> try (intro h; cases h)
  split <;> (intro h; cases h)
theorem na_uop (w : ℕ) (op : UOp) (a b : ℕ) : NA (op.eval w a b) := by
  unfold UOp.eval
  split <;> try (intro h; cases h)
  all_goals split <;> (intro h; cases h)

mutual
theorem na_evalT (env : TEnv p) : ∀ (e : TExpr (ZMod p)), NA (evalT env e)
  | .fval _ | .bval _ | .uval _ _ => by simp only [evalT]; exact na_ok
  | .removed _ => by simp only [evalT]; intro h; cases h
  | .ident x t => by
    simp only [evalT]
    split
    · split
      · exact na_ok
      · intro h; cases h
    · intro h; cases h
  | .fbin op l r => by
    simp only [evalT]
    exact na_bind (na_bind (na_evalT env l) na_asField) fun _ => na_bind (na_bind (na_evalT env r) na_asField) fun _ => na_bind (na_fop _ _ _) fun _ => na_ok
  | .fubin op l r => by
    simp only [evalT]
    refine na_bind (na_bind (na_evalT env l) na_asField) fun _ => na_bind (na_bind (na_evalT env r) (na_asUint _)) fun _ => ?_
    split
    · exact na_ok
    · intro h; cases h
  | .fneg e => by simp only [evalT]; exact na_bind (na_bind (na_evalT env e) na_asField) fun _ => na_ok
  | .fpos e => by simp only [evalT]; exact na_bind (na_bind (na_evalT env e) na_asField) fun _ => na_ok
  | .ubin w op l r => by
    simp only [evalT]
    exact na_bind (na_bind (na_evalT env l) (na_asUint _)) fun _ => na_bind (na_bind (na_evalT env r) (na_asUint _)) fun _ => na_bind (na_uop _ _ _ _) fun _ => na_ok
  | .unot w e => by simp only [evalT]; exact na_bind (na_bind (na_evalT env e) (na_asUint _)) fun _ => na_ok
  | .uneg w e => by simp only [evalT]; exact na_bind (na_bind (na_evalT env e) (na_asUint _)) fun _ => na_ok
  | .upos w e => by simp only [evalT]; exact na_bind (na_bind (na_evalT env e) (na_asUint _)) fun _ => na_ok
  | .bbin op l r => by
    simp only [evalT]
    exact na_bind (na_bind (na_evalT env l) na_asBool) fun _ => na_bind (na_bind (na_evalT env r) na_asBool) fun _ => na_ok
  | .bnot e => by simp only [evalT]; exact na_bind (na_bind (na_evalT env e) na_asBool) fun _ => na_ok
  | .fcmp op l r => by
    simp only [evalT]
    refine na_bind (na_bind (na_evalT env l) na_asField) fun _ => na_bind (na_bind (na_evalT env r) na_asField) fun _ => ?_
    split
    · exact na_ok
    · intro h; cases h
  | .ucmp op l r => by
    simp only [evalT]
    exact na_bind (na_bind (na_evalT env l) (na_asUintOf _)) fun _ => na_bind (na_bind (na_evalT env r) (na_asUintOf _)) fun _ => na_ok
  | .eq l r => by simp only [evalT]; exact na_bind (na_evalT env l) fun _ => na_bind (na_evalT env r) fun _ => na_ok
  | .cond t c a b => by
    simp only [evalT]
    exact na_bind (na_bind (na_evalT env c) na_asBool) fun _ => na_bind (na_evalT env a) fun _ => na_bind (na_evalT env b) fun _ => na_ok
  | .select t a i => by
    simp only [evalT]
    exact na_bind (na_bind (na_evalT env a) na_asArray) fun _ => na_bind (na_bind (na_evalT env i) (na_asUint _)) fun _ => na_selectVal _ _
  | .member t s m => by
    simp only [evalT]
    refine na_bind (na_evalT env s) fun v => ?_
    split
    · split
      · exact na_ok
      · intro h; cases h
    · intro h; cases h
  | .element t s m => by
    simp only [evalT]
    refine na_bind (na_evalT env s) fun v => ?_
    split
    · split
      · exact na_ok
      · intro h; cases h
    · intro h; cases h
  | .array t n es => by simp only [evalT]; exact na_bind (na_evalS env es) fun _ => na_ok
  | .slice t n a lo hi => by
    simp only [evalT]
    refine na_bind (na_bind (na_evalT env a) na_asArray) fun _ => na_bind (na_bind (na_evalT env lo) (na_asUint _)) fun _ =>
      na_bind (na_bind (na_evalT env hi) (na_asUint _)) fun _ => ?_
    split
    · exact na_ok
    · intro h; cases h
  | .repeat_ t n e c => by
    simp only [evalT]
    exact na_bind (na_evalT env e) fun _ => na_bind (na_bind (na_evalT env c) (na_asUint _)) fun _ => na_ok
  | .struct ms es => by simp only [evalT]; exact na_bind (na_evalL env es) fun _ => na_ok
  | .tuple ts es => by simp only [evalT]; exact na_bind (na_evalL env es) fun _ => na_ok
theorem na_evalL (env : TEnv p) : ∀ (es : List (TExpr (ZMod p))), NA (evalL env es)
  | [] => by simp only [evalL]; exact na_ok
  | e :: es => by simp only [evalL]; exact na_bind (na_evalT env e) fun _ => na_bind (na_evalL env es) fun _ => na_ok
theorem na_evalS (env : TEnv p) : ∀ (es : List (TSpread (ZMod p))), NA (evalS env es)
  | [] => by simp only [evalS]; exact na_ok
  | .expr e :: es => by simp only [evalS]; exact na_bind (na_evalT env e) fun _ => na_bind (na_evalS env es) fun _ => na_ok
  | .spread e :: es => by simp only [evalS]; exact na_bind (na_bind (na_evalT env e) na_asArray) fun _ => na_bind (na_evalS env es) fun _ => na_ok
end

theorem na_getA (env : TEnv p) : ∀ (a : TAssignee (ZMod p)), NA (getA env a)
  | .ident x t => by simp only [getA]; exact na_evalT _ _
  | .select a i => by
    simp only [getA]
    exact na_bind (na_bind (na_getA env a) na_asArray) fun _ => na_bind (na_bind (na_evalT env i) (na_asUint _)) fun _ => na_selectVal _ _
  | .member a m => by
    simp only [getA]
    refine na_bind (na_getA env a) fun v => ?_
    split
    · split
      · exact na_ok
      · intro h; cases h
    · intro h; cases h
  | .element a m => by
    simp only [getA]
    refine na_bind (na_getA env a) fun v => ?_
    split
    · split
      · exact na_ok
      · intro h; cases h
    · intro h; cases h

theorem na_setA (env : TEnv p) : ∀ (a : TAssignee (ZMod p)) (v : AVal (ZMod p)), NA (setA env a v)
  | .ident x t, v => by simp only [setA]; exact na_ok
  | .select a i, v => by
    simp only [setA]
    refine na_bind (na_bind (na_getA env a) na_asArray) fun _ => na_bind (na_bind (na_evalT env i) (na_asUint _)) fun _ => ?_
    split
    · exact na_setA env a _
    · intro h; cases h
  | .member a m, v => by
    simp only [setA]
    refine na_bind (na_getA env a) fun v => ?_
    split
    · exact na_setA env a _
    · intro h; cases h
  | .element a m, v => by
    simp only [setA]
    refine na_bind (na_getA env a) fun v => ?_
    split
    · exact na_setA env a _
    · intro h; cases h

theorem na_embed {f : Embed} {g : List ℕ} {vs : List (ZVal p)} {e : Fault} (h : EmbedRes O f g vs (.error e)) : e ≠ .assertionFailed := by
  cases h
  intro h
  cases h

/-! ### What execution does not change -/

theorem ExecT.frame {s : TStmt (ZMod p)} {τ τ' : TState p} (h : ExecT O τ s (.ok τ')) {x : TId} (hx : x ∉ s.assigns) : τ'.env x = τ.env x := by
  cases h with
  | ret | assertOk | log => rfl
  | definition | embed =>
    simp only [TStmt.assigns, List.mem_singleton] at hx
    simp only [TState.set, if_neg hx]

theorem ExecTs.frame {ss : List (TStmt (ZMod p))} {τ τ' : TState p} (h : ExecTs O τ ss (.ok τ')) {x : TId} (hx : ∀ s ∈ ss, x ∉ s.assigns) : τ'.env x = τ.env x := by
  induction ss generalizing τ with
  | nil => cases h; rfl
  | cons s ss ih =>
    cases h with
    | cons h1 h2 => rw [ih h2 fun s hs => hx s (by simp [hs]), h1.frame (hx s (by simp))]

/-- Statements other than `return`. -/
def TStmt.NoRet {F : Type} : TStmt F → Prop
  | .ret _ => False
  | _ => True

theorem ExecT.out {s : TStmt (ZMod p)} {τ τ' : TState p} (h : ExecT O τ s (.ok τ')) (hs : s.NoRet) : τ'.out = τ.out := by
  cases h with
  | ret => exact hs.elim
  | assertOk | log | definition | embed => rfl

end Zok.Typed
