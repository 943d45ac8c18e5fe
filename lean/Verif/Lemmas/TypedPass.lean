import Verif.Spec.Replaces
import Verif.Lemmas.TypedDet
import Verif.Lemmas.TypedEval

/-
Passes that replace each statement by a list of statements.
-/

set_option linter.unusedSectionVars false

namespace Zok.Typed
open Abi
variable {p : ℕ} {Z : Type} [Fact p.Prime] {O : Oracle p Z}

theorem ExecTs.append {ss ts : List (TStmt (ZMod p))} {σ σ' : TState p} {r : Except Fault (TState p)} (h : ExecTs O σ ss (.ok σ'))
    (h' : ExecTs O σ' ts r) : ExecTs O σ (ss ++ ts) r := by
  induction ss generalizing σ with
  | nil => cases h; exact h'
  | cons s ss ih =>
    cases h with
    | cons h1 h2 => exact .cons h1 (ih h2)

theorem ExecTs.append_error {ss ts : List (TStmt (ZMod p))} {σ : TState p} {e : Fault} (h : ExecTs O σ ss (.error e)) :
    ExecTs O σ (ss ++ ts) (.error e) := by
  induction ss generalizing σ with
  | nil => cases h
  | cons s ss ih =>
    cases h with
    | fault h1 => exact .fault h1
    | cons h1 h2 => exact .cons h1 (ih h2)

theorem ExecTs.split {ss ts : List (TStmt (ZMod p))} {σ : TState p} {r : Except Fault (TState p)} (h : ExecTs O σ (ss ++ ts) r) :
    (∃ σ', ExecTs O σ ss (.ok σ') ∧ ExecTs O σ' ts r) ∨ ∃ e, r = .error e ∧ ExecTs O σ ss (.error e) := by
  induction ss generalizing σ with
  | nil => exact .inl ⟨σ, .nil, h⟩
  | cons s ss ih =>
    cases h with
    | fault h1 => exact .inr ⟨_, rfl, .fault h1⟩
    | cons h1 h2 =>
      rcases ih h2 with ⟨σ', h3, h4⟩ | ⟨e, h3, h4⟩
      · exact .inl ⟨σ', .cons h1 h3, h4⟩
      · exact .inr ⟨e, h3, .cons h1 h4⟩

theorem ExecTs.one {s : TStmt (ZMod p)} {σ : TState p} {r : Except Fault (TState p)} (h : ExecT O σ s r) : ExecTs O σ [s] r := by
  cases r with
  | error e => exact .fault h
  | ok σ' => exact .cons h .nil

theorem ExecTs.of_one {s : TStmt (ZMod p)} {σ : TState p} {r : Except Fault (TState p)} (h : ExecTs O σ [s] r) : ExecT O σ s r := by
  cases h with
  | fault h => exact h
  | cons h h' => cases h'; exact h

/-- Not a call of an embedded function. -/
def TStmt.Pure {F : Type} : TStmt F → Prop
  | .embed _ _ _ _ => False
  | _ => True

theorem TStmt.Pure.free {s : TStmt (ZMod p)} (h : s.Pure) : s.OracleFree := by cases s <;> simp_all [TStmt.Pure, TStmt.OracleFree]

theorem ExecT.total {s : TStmt (ZMod p)} (hs : s.Pure) (ht : ∀ e err, s = .assertion e err → e.ty = .bool) (hb : ∀ e err, s = .assertion e err → ∀ env v,
    evalT env e = .ok v → ∃ b, v = AVal.bool b) (σ : TState p) : ∃ r, ExecT O σ s r := by
  cases s with
  | ret e =>
    cases h : evalT σ.env e with
    | ok v => exact ⟨_, .ret h⟩
    | error f => exact ⟨_, .retFault h⟩
  | definition a e =>
    cases h : evalT σ.env e with
    | error f => exact ⟨_, .rhsFault h⟩
    | ok v =>
      cases h' : setA σ.env a v with
      | error f => exact ⟨_, .lhsFault h h'⟩
      | ok u => exact ⟨_, .definition h h'⟩
  | embed a f g args => exact hs.elim
  | assertion e err =>
    cases h : evalT σ.env e with
    | error f => exact ⟨_, .assertFault h⟩
    | ok v =>
      obtain ⟨b, rfl⟩ := hb e err rfl _ _ h
      cases b with
      | true => exact ⟨_, .assertOk h⟩
      | false => exact ⟨_, .assertFailed h⟩
  | log es =>
    cases h : evalL σ.env es with
    | ok v => exact ⟨_, .log h⟩
    | error f => exact ⟨_, .logFault h⟩

theorem ExecT.total_wt {t : CType} {s : TStmt (ZMod p)} (hs : s.Pure) (hw : s.Wt t) (σ : TState p) : ∃ r, ExecT O σ s r := by
  refine ExecT.total hs ?_ ?_ σ
  · rintro e err rfl
    exact hw.1
  · rintro e err rfl env v hv
    have := eval_hasType env e v hw.2 hv
    rw [hw.1] at this
    cases v <;> simp_all [HasType]

/-- The statements `ss` do what the statement `s` does, in related states. -/
structure StepFor (O : Oracle p Z) (R : TState p → TState p → Prop) (s : TStmt (ZMod p)) (ss : List (TStmt (ZMod p))) : Prop where
  fwd : ∀ σ τ σ', R σ τ → ExecT O σ s (.ok σ') → ∃ τ', ExecTs O τ ss (.ok τ') ∧ R σ' τ'
  bwd : ∀ σ τ τ', R σ τ → ExecTs O τ ss (.ok τ') → (∃ σ', ExecT O σ s (.ok σ') ∧ R σ' τ') ∨ ∃ e, ExecT O σ s (.error e)
  err : ∀ σ τ e, R σ τ → ExecTs O τ ss (.error e) → ∃ e', ExecT O σ s (.error e')
  asr : ∀ σ τ e err, R σ τ → s = .assertion e err → evalT σ.env e = .ok (.bool false) → ∃ pre e' err' post τ', ss = pre ++ .assertion e' err' :: post ∧
    ExecTs O τ pre (.ok τ') ∧ evalT τ'.env e' = .ok (.bool false)

theorem StepFor.of_fwd {R : TState p → TState p → Prop} {t : CType} {s : TStmt (ZMod p)} {ss : List (TStmt (ZMod p))} (hs : s.Pure) (hw : s.Wt t)
    (hss : ∀ s ∈ ss, s.Pure) (fwd : ∀ σ τ σ', R σ τ → ExecT O σ s (.ok σ') → ∃ τ', ExecTs O τ ss (.ok τ') ∧ R σ' τ')
    (asr : ∀ σ τ e err, R σ τ → s = .assertion e err → evalT σ.env e = .ok (.bool false) → ∃ pre e' err' post τ', ss = pre ++ .assertion e' err' :: post ∧
      ExecTs O τ pre (.ok τ') ∧ evalT τ'.env e' = .ok (.bool false)) : StepFor O R s ss where
  fwd := fwd
  asr := asr
  bwd := fun σ τ τ' hR h => by
    obtain ⟨r, hr⟩ := ExecT.total_wt (O := O) hs hw σ
    cases r with
    | error e => exact .inr ⟨e, hr⟩
    | ok σ' =>
      obtain ⟨τ'', h1, h2⟩ := fwd σ τ σ' hR hr
      have := h1.det (fun s h => (hss s h).free) h
      cases this
      exact .inl ⟨σ', hr, h2⟩
  err := fun σ τ e hR h => by
    obtain ⟨r, hr⟩ := ExecT.total_wt (O := O) hs hw σ
    cases r with
    | error e => exact ⟨e, hr⟩
    | ok σ' =>
      obtain ⟨τ'', h1, h2⟩ := fwd σ τ σ' hR hr
      have := h1.det (fun s h => (hss s h).free) h
      cases this

/-- The statements of `tss` do what those of `ss` do. -/
theorem StepFor.list {R : TState p → TState p → Prop} {ss : List (TStmt (ZMod p))} {tss : List (List (TStmt (ZMod p)))}
    (h : List.Forall₂ (StepFor O R) ss tss) :
    (∀ σ τ σ', R σ τ → ExecTs O σ ss (.ok σ') → ∃ τ', ExecTs O τ tss.flatten (.ok τ') ∧ R σ' τ') ∧
    (∀ σ τ τ', R σ τ → ExecTs O τ tss.flatten (.ok τ') → (∃ σ', ExecTs O σ ss (.ok σ') ∧ R σ' τ') ∨ ∃ e, ExecTs O σ ss (.error e)) ∧
    (∀ σ τ e, R σ τ → ExecTs O τ tss.flatten (.error e) → ∃ e', ExecTs O σ ss (.error e')) := by
  induction h with
  | nil =>
    refine ⟨?_, ?_, ?_⟩
    · intro σ τ σ' hR h; cases h; exact ⟨τ, .nil, hR⟩
    · intro σ τ τ' hR h; cases h; exact .inl ⟨σ, .nil, hR⟩
    · intro σ τ e hR h; cases h
  | @cons s ts ss tss h1 h2 ih =>
    obtain ⟨i1, i2, i3⟩ := ih
    refine ⟨?_, ?_, ?_⟩
    · intro σ τ σ' hR h
      cases h with
      | cons g1 g2 =>
        obtain ⟨τ1, k1, k2⟩ := h1.fwd _ _ _ hR g1
        obtain ⟨τ2, k3, k4⟩ := i1 _ _ _ k2 g2
        exact ⟨τ2, k1.append k3, k4⟩
    · intro σ τ τ' hR h
      rw [List.flatten_cons] at h
      rcases h.split with ⟨τ1, g1, g2⟩ | ⟨e, g1, g2⟩
      · rcases h1.bwd _ _ _ hR g1 with ⟨σ1, k1, k2⟩ | ⟨e, k1⟩
        · rcases i2 _ _ _ k2 g2 with ⟨σ2, k3, k4⟩ | ⟨e, k3⟩
          · exact .inl ⟨σ2, .cons k1 k3, k4⟩
          · exact .inr ⟨e, .cons k1 k3⟩
        · exact .inr ⟨e, .fault k1⟩
      · cases g1
    · intro σ τ e hR h
      rw [List.flatten_cons] at h
      rcases h.split with ⟨τ1, g1, g2⟩ | ⟨e, g1, g2⟩
      · rcases h1.bwd _ _ _ hR g1 with ⟨σ1, k1, k2⟩ | ⟨e, k1⟩
        · obtain ⟨e', k3⟩ := i3 _ _ _ k2 g2
          exact ⟨e', .cons k1 k3⟩
        · exact ⟨e, .fault k1⟩
      · obtain ⟨e', k1⟩ := h1.err _ _ _ hR g2
        exact ⟨e', .fault k1⟩

theorem forall₂_append_left {α β : Type _} {R : α → β → Prop} {a b : List α} {c : List β} (h : List.Forall₂ R (a ++ b) c) :
    ∃ c1 c2, c = c1 ++ c2 ∧ List.Forall₂ R a c1 ∧ List.Forall₂ R b c2 := by
  induction a generalizing c with
  | nil => exact ⟨[], c, rfl, .nil, h⟩
  | cons x a ih =>
    cases h with
    | cons h1 h2 =>
      obtain ⟨c1, c2, rfl, h3, h4⟩ := ih h2
      exact ⟨_ :: c1, c2, rfl, .cons h1 h3, h4⟩

theorem setAll_out (σ : TState p) (xs : List TId) (vs : List (AVal (ZMod p))) : (σ.setAll xs vs).out = σ.out := by
  induction xs generalizing σ vs with
  | nil => rfl
  | cons x xs ih =>
    cases vs with
    | nil => rfl
    | cons v vs => exact ih (σ.set x v) vs

theorem Replaces.of_steps {R : TState p → TState p → Prop} (hR : ∀ σ τ, R σ τ → τ.out = σ.out) {f g : TFun (ZMod p)} (hp : g.params = f.params)
    {tss : List (List (TStmt (ZMod p)))} (hb : g.body = tss.flatten) (h : List.Forall₂ (StepFor O R) f.body tss)
    (hi : ∀ args, R (initT f args) (initT f args)) : Replaces O f g := by
  have hinit : ∀ args, initT g args = initT f args := fun args => by simp only [initT, hp]
  obtain ⟨h1, h2, h3⟩ := StepFor.list h
  refine ⟨?_, ?_, ?_, ?_⟩
  · rintro args out ⟨k1, σ, k2, k3⟩
    obtain ⟨τ, k4, k5⟩ := h1 _ _ _ (hi args) k2
    exact ⟨by rwa [hp], τ, by rwa [hinit, hb], by rw [hR _ _ k5, k3]⟩
  · rintro args out ⟨k1, τ, k2, k3⟩
    rw [hinit, hb] at k2
    rw [hp] at k1
    rcases h2 _ _ _ (hi args) k2 with ⟨σ, k4, k5⟩ | ⟨e, k4⟩
    · exact .inl ⟨k1, σ, k4, by rw [← hR _ _ k5, k3]⟩
    · exact .inr ⟨e, k1, k4⟩
  · rintro args e ⟨k1, k2⟩
    rw [hinit, hb] at k2
    rw [hp] at k1
    obtain ⟨e', k3⟩ := h3 _ _ _ (hi args) k2
    exact ⟨e', k1, k3⟩
  · rintro args ⟨k1, pre, e, err, post, σ, k2, k3, k4⟩
    rw [k2] at h
    obtain ⟨c1, c2, rfl, h4, h5⟩ := forall₂_append_left h
    cases h5 with
    | @cons _ ts _ tss' h5 h6 =>
      obtain ⟨τ, k5, k6⟩ := (StepFor.list h4).1 _ _ _ (hi args) k3
      obtain ⟨pre', e', err', post', τ', k7, k8, k9⟩ := h5.asr _ _ e err k6 rfl k4
      refine ⟨by rwa [hp], c1.flatten ++ pre', e', err', post' ++ tss'.flatten, τ', ?_, ?_, k9⟩
      · rw [hb, k7]; simp
      · rw [hinit]; exact k5.append k8

/-! ### Statements whose expressions are replaced -/

/-- In the environment `env`, the expressions of `s'` have the values of those of `s`, where these have values. -/
def StmtRef (env : TEnv p) : TStmt (ZMod p) → TStmt (ZMod p) → Prop
  | .ret e, .ret e' => ∀ v, evalT env e = .ok v → evalT env e' = .ok v
  | .definition a e, .definition a' e' => (∀ v, evalT env e = .ok v → evalT env e' = .ok v) ∧ a'.root = a.root ∧ ∀ w u, setA env a w = .ok u → setA env a' w = .ok u
  | .embed a f g args, .embed a' f' g' args' => f' = f ∧ g' = g ∧ a'.ty = a.ty ∧ (∀ vs, evalL env args = .ok vs → evalL env args' = .ok vs) ∧ a'.root = a.root ∧
      ∀ w u, setA env a w = .ok u → setA env a' w = .ok u
  | .assertion e _, .assertion e' _ => ∀ v, evalT env e = .ok v → evalT env e' = .ok v
  | .log es, .log es' => ∀ vs, evalL env es = .ok vs → evalL env es' = .ok vs
  | _, _ => False

theorem StmtRef.fwd {s s' : TStmt (ZMod p)} {σ σ' : TState p} (h : StmtRef σ.env s s') (hx : ExecT O σ s (.ok σ')) : ExecT O σ s' (.ok σ') := by
  cases s <;> cases s' <;> simp only [StmtRef] at h
  case ret.ret e e' => cases hx with | ret h1 => exact .ret (h _ h1)
  case definition.definition a e a' e' =>
    obtain ⟨h1, h2, h3⟩ := h
    cases hx with
    | definition g1 g2 => rw [← h2]; exact .definition (h1 _ g1) (h3 _ _ g2)
  case embed.embed a f g args a' f' g' args' =>
    obtain ⟨rfl, rfl, h0, h1, h2, h3⟩ := h
    cases hx with
    | embed g1 g2 g3 g4 g5 => rw [← h2]; exact .embed (h1 _ g1) (h0 ▸ g2) g3 g4 (h3 _ _ g5)
  case assertion.assertion => cases hx with | assertOk h1 => exact .assertOk (h _ h1)
  case log.log => cases hx with | log h1 => exact .log (h _ h1)

theorem StmtRef.bwd {t : CType} {s s' : TStmt (ZMod p)} {σ : TState p} {r : Except Fault (TState p)} (hw : s.Wt t) (h : StmtRef σ.env s s')
    (hx : ExecT O σ s' r) : ExecT O σ s r ∨ ∃ e, ExecT O σ s (.error e) := by
  by_cases hs : s.Pure
  · obtain ⟨r', hr⟩ := ExecT.total_wt (O := O) hs hw σ
    cases r' with
    | error e => exact .inr ⟨e, hr⟩
    | ok σ' =>
      have h1 := h.fwd hr
      have : s'.Pure := by cases s <;> cases s' <;> simp only [StmtRef] at h <;> first | trivial | exact hs
      have := h1.det this.free hx
      subst this
      exact .inl hr
  · cases s <;> simp only [TStmt.Pure, not_true_eq_false] at hs
    rename_i a f g args
    cases s' <;> simp only [StmtRef] at h
    obtain ⟨rfl, rfl, h0, h1, h2, h3⟩ := h
    rename_i a' f g args'
    cases hl : evalL σ.env args with
    | error e => exact .inr ⟨e, .argsFault hl⟩
    | ok vs =>
      have hl' := h1 _ hl
      cases hx with
      | embed g1 g2 g3 g4 g5 =>
        rw [hl'] at g1
        cases g1
        rename_i v t u
        cases hu : setA σ.env a v with
        | error e => exact .inr ⟨e, .embedLhsFault hl (h0 ▸ g2) g3 g4 hu⟩
        | ok u' =>
          have := h3 _ _ hu
          rw [g5] at this
          cases this
          rw [h2]
          exact .inl (.embed hl (h0 ▸ g2) g3 g4 hu)
      | argsFault g1 => rw [hl'] at g1; cases g1
      | embedFault g1 g2 =>
        rw [hl'] at g1
        cases g1
        exact .inr ⟨_, .embedFault hl g2⟩
      | embedLhsFault g1 g2 g3 g4 g5 =>
        rw [hl'] at g1
        cases g1
        rename_i v t f
        cases hu : setA σ.env a v with
        | error e => exact .inr ⟨e, .embedLhsFault hl (h0 ▸ g2) g3 g4 hu⟩
        | ok u' =>
          have := h3 _ _ hu
          rw [g5] at this
          cases this

/-- Replacing expressions step by step, under an invariant of the states. -/
theorem StepFor.of_ref {I : TState p → Prop} {t : CType} {s s' : TStmt (ZMod p)} (hw : s.Wt t) (hI : ∀ σ, I σ → StmtRef σ.env s s')
    (keep : ∀ σ σ', I σ → ExecT O σ s (.ok σ') → I σ') : StepFor O (fun σ τ => τ = σ ∧ I σ) s [s'] where
  fwd := by
    rintro σ τ σ' ⟨rfl, hi⟩ h
    exact ⟨σ', .one ((hI _ hi).fwd h), rfl, keep _ _ hi h⟩
  bwd := by
    rintro σ τ τ' ⟨rfl, hi⟩ h
    rcases (hI _ hi).bwd hw h.of_one with h | h
    · exact .inl ⟨τ', h, rfl, keep _ _ hi h⟩
    · exact .inr h
  err := by
    rintro σ τ e ⟨rfl, hi⟩ h
    rcases (hI _ hi).bwd hw h.of_one with h | h
    · exact ⟨e, h⟩
    · exact h
  asr := by
    rintro σ τ e err ⟨rfl, hi⟩ rfl h
    have := hI _ hi
    cases s' <;> simp only [StmtRef] at this
    exact ⟨[], _, _, [], τ, rfl, .nil, this _ h⟩

end Zok.Typed
