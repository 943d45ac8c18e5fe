import Verif.Lemmas.PanicFold
import Verif.Lemmas.Field

/-
Lemmas on the extraction of panics: when the guards pass, and what they rule out.
-/

set_option linter.unusedSectionVars false
set_option linter.unusedSimpArgs false
set_option linter.unusedVariables false

namespace Zok.Px
variable {p : ℕ} {Z : Type} [Fact p.Prime] {O : Oracle p Z} {σ σ' : ZState p}

@[simp] theorem okB {α β : Type} (a : α) (f : α → Except Fault β) : ((Except.ok a : Except Fault α) >>= f) = f a := rfl
@[simp] theorem errB {α β : Type} (e : Fault) (f : α → Except Fault β) :
    ((Except.error e : Except Fault α) >>= f) = Except.error e := rfl

/-- Statements that only check something. -/
inductive IsGuard : ZStmt (ZMod p) Z → Prop
  | assertion (e err) : IsGuard (.assertion e err)
  | ifElse {c t e} : (∀ s, s ∈ t → IsGuard s) → (∀ s, s ∈ e → IsGuard s) → IsGuard (.ifElse c t e)

theorem execL_append {a b : List (ZStmt (ZMod p) Z)} {r : Except Fault (ZState p)} :
    ExecL O σ (a ++ b) r ↔ (∃ σ', ExecL O σ a (.ok σ') ∧ ExecL O σ' b r) ∨ ∃ e, r = .error e ∧ ExecL O σ a (.error e) := by
  induction a generalizing σ with
  | nil =>
    constructor
    · exact fun h => .inl ⟨σ, .nil, h⟩
    · rintro (⟨σ', h1, h2⟩ | ⟨e, rfl, h⟩)
      · cases h1; exact h2
      · cases h
  | cons s ss ih =>
    constructor
    · intro h
      cases h with
      | fault h => exact .inr ⟨_, rfl, .fault h⟩
      | cons h1 h2 =>
        rcases ih.1 h2 with ⟨σ', h3, h4⟩ | ⟨e, rfl, h3⟩
        · exact .inl ⟨σ', .cons h1 h3, h4⟩
        · exact .inr ⟨e, rfl, .cons h1 h3⟩
    · rintro (⟨σ', h1, h2⟩ | ⟨e, rfl, h⟩)
      · cases h1 with
        | cons h1 h3 => exact .cons h1 (ih.2 (.inl ⟨σ', h3, h2⟩))
      · cases h with
        | fault h => exact .fault h
        | cons h1 h3 => exact .cons h1 (ih.2 (.inr ⟨e, rfl, h3⟩))

theorem execL_single {s : ZStmt (ZMod p) Z} {r : Except Fault (ZState p)} : ExecL O σ [s] r ↔ Exec O σ s r := by
  constructor
  · intro h
    cases h with
    | fault h => exact h
    | cons h1 h2 => cases h2; exact h1
  · intro h
    cases r with
    | error e => exact .fault h
    | ok σ' => exact .cons h .nil

theorem Conjunct.evalB_ok {env : ZEnv p} {c e : BExpr (ZMod p)} (h : Conjunct c e) :
    ∀ {b}, evalB env e = .ok b → ∃ b', evalB env c = .ok b' := by
  induction h with
  | self => exact fun h => ⟨_, h⟩
  | @left l r h ih =>
    intro b hb
    simp only [evalB] at hb
    cases hl : evalB env l with
    | error f => rw [hl] at hb; cases hb
    | ok v => exact ih hl
  | @right l r h ih =>
    intro b hb
    simp only [evalB] at hb
    cases hl : evalB env l with
    | error f => rw [hl] at hb; cases hb
    | ok v =>
      rw [hl] at hb
      cases hr : evalB env r with
      | error f => rw [hr] at hb; cases hb
      | ok v => exact ih hr

/-- Guards in a list. -/
abbrev Guards (gs : List (ZStmt (ZMod p) Z)) : Prop := ∀ s ∈ gs, IsGuard s

/-- All guards hold. -/
abbrev Pass (O : Oracle p Z) (σ : ZState p) (gs : List (ZStmt (ZMod p) Z)) : Prop := ExecL O σ gs (.ok σ)

/-- A statement behaves as a guard. -/
structure GuardLike (s : ZStmt (ZMod p) Z) : Prop where
  total : ∀ (O : Oracle p Z) σ, Exec O σ s (.ok σ) ∨ ∃ e, Exec O σ s (.error e)
  frame : ∀ (O : Oracle p Z) σ σ', Exec O σ s (.ok σ') → σ' = σ
  excl : ∀ (O : Oracle p Z) σ e, Exec O σ s (.ok σ) → ¬ Exec O σ s (.error e)

theorem guardLike_list {gs : List (ZStmt (ZMod p) Z)} (h : ∀ s ∈ gs, GuardLike s) :
    (∀ (O : Oracle p Z) σ, ExecL O σ gs (.ok σ) ∨ ∃ e, ExecL O σ gs (.error e)) ∧
    (∀ (O : Oracle p Z) σ σ', ExecL O σ gs (.ok σ') → σ' = σ) ∧
    (∀ (O : Oracle p Z) σ e, ExecL O σ gs (.ok σ) → ¬ ExecL O σ gs (.error e)) := by
  induction gs with
  | nil =>
    refine ⟨fun O σ => .inl .nil, fun O σ σ' h => ?_, fun O σ e _ h => ?_⟩
    · cases h; rfl
    · cases h
  | cons s ss ih =>
    obtain ⟨i1, i2, i3⟩ := ih fun s hs => h s (List.mem_cons_of_mem _ hs)
    have hs := h s List.mem_cons_self
    refine ⟨fun O σ => ?_, fun O σ σ' h => ?_, fun O σ e h1 h2 => ?_⟩
    · rcases hs.total O σ with h1 | ⟨e, h1⟩
      · rcases i1 O σ with h2 | ⟨e, h2⟩
        · exact .inl (.cons h1 h2)
        · exact .inr ⟨e, .cons h1 h2⟩
      · exact .inr ⟨e, .fault h1⟩
    · cases h with
      | cons h1 h2 =>
        have := hs.frame O _ _ h1
        subst this
        exact i2 O _ _ h2
    · cases h1 with
      | cons a b =>
        have := hs.frame O _ _ a
        subst this
        cases h2 with
        | fault c => exact hs.excl O _ _ a c
        | cons c d =>
          have := hs.frame O _ _ c
          subst this
          exact i3 O _ _ b d

theorem IsGuard.like {s : ZStmt (ZMod p) Z} (h : IsGuard s) : GuardLike s := by
  induction h with
  | assertion e err =>
    refine ⟨fun O σ => ?_, fun O σ σ' h => ?_, fun O σ f h1 h2 => ?_⟩
    · cases he : evalB σ.env e with
      | error f => exact .inr ⟨f, .assertFault (.self e) he⟩
      | ok b => cases b with
        | true => exact .inl (.assertOk he)
        | false => exact .inr ⟨_, .assertFailed he⟩
    · cases h; rfl
    · cases h1 with
      | assertOk h1 => cases h2 with
        | assertFailed h2 => rw [h1] at h2; cases h2
        | assertFault hc h2 =>
          obtain ⟨b, h3⟩ := Conjunct.evalB_ok hc h1
          rw [h3] at h2; cases h2
  | @ifElse c t e _ _ ht he =>
    obtain ⟨t1, t2, t3⟩ := guardLike_list ht
    obtain ⟨e1, e2, e3⟩ := guardLike_list he
    refine ⟨fun O σ => ?_, fun O σ σ' h => ?_, fun O σ f h1 h2 => ?_⟩
    · cases hc : evalB σ.env c with
      | error f => exact .inr ⟨f, .ifFault hc⟩
      | ok b =>
        rcases t1 O σ with h1 | ⟨f, h1⟩
        · rcases e1 O σ with h2 | ⟨f, h2⟩
          · exact .inl (.ifElse hc h1 h2)
          · exact .inr ⟨f, .ifElse hc h1 h2⟩
        · exact .inr ⟨f, .thenFault hc h1⟩
    · cases h with
      | ifElse hc h1 h2 =>
        have := t2 O _ _ h1
        subst this
        exact e2 O _ _ h2
    · cases h1 with
      | ifElse hc h1 h3 =>
        have := t2 O _ _ h1
        subst this
        cases h2 with
        | ifElse hc' h4 h5 =>
          have := t2 O _ _ h4
          subst this
          exact e3 O _ _ h3 h5
        | ifFault hc' => rw [hc] at hc'; cases hc'
        | thenFault hc' h4 => exact t3 O _ _ h1 h4

theorem Guards.total {gs : Buf p Z} (h : Guards gs) (O : Oracle p Z) (σ : ZState p) :
    Pass O σ gs ∨ ∃ e, ExecL O σ gs (.error e) := (guardLike_list fun s hs => (h s hs).like).1 O σ
theorem Guards.frame {gs : Buf p Z} (h : Guards gs) (h1 : ExecL O σ gs (.ok σ')) : σ' = σ :=
  (guardLike_list fun s hs => (h s hs).like).2.1 O _ _ h1
theorem Guards.excl {gs : Buf p Z} (h : Guards gs) (h1 : Pass O σ gs) {e : Fault} : ¬ ExecL O σ gs (.error e) :=
  (guardLike_list fun s hs => (h s hs).like).2.2 O _ _ h1

theorem Guards.append {a b : Buf p Z} (ha : Guards a) (hb : Guards b) : Guards (a ++ b) := fun s hs => by
  rcases List.mem_append.1 hs with h | h
  · exact ha s h
  · exact hb s h

theorem Guards.execL_append {a : Buf p Z} (ha : Guards a) {b : Buf p Z} {r : Except Fault (ZState p)} :
    ExecL O σ (a ++ b) r ↔ (Pass O σ a ∧ ExecL O σ b r) ∨ ∃ e, r = .error e ∧ ExecL O σ a (.error e) := by
  rw [Px.execL_append]
  constructor
  · rintro (⟨σ', h1, h2⟩ | h)
    · have := ha.frame h1
      subst this
      exact .inl ⟨h1, h2⟩
    · exact .inr h
  · rintro (⟨h1, h2⟩ | h)
    · exact .inl ⟨σ, h1, h2⟩
    · exact .inr h

theorem Guards.pass_append {a : Buf p Z} (ha : Guards a) {b : Buf p Z} :
    Pass O σ (a ++ b) ↔ Pass O σ a ∧ Pass O σ b := by
  rw [Pass, ha.execL_append]
  constructor
  · rintro (h | ⟨e, h, _⟩)
    · exact h
    · cases h
  · exact .inl

/-- The guards `gs` are right for a computation with outcome `r`: they hold if it succeeds, and if they hold then it does
not divide by zero. -/
structure GI {α : Type} (O : Oracle p Z) (σ : ZState p) (gs : Buf p Z) (r : Except Fault α) : Prop where
  guards : Guards gs
  pass : ∀ v, r = .ok v → Pass O σ gs
  safe : Pass O σ gs → r ≠ .error .divZero
  noDiv : ¬ ExecL O σ gs (.error .divZero)

theorem GI.nil {α : Type} {r : Except Fault α} (h : r ≠ .error .divZero) : GI O σ ([] : Buf p Z) r :=
  ⟨(fun _ h => by cases h), (fun _ _ => .nil), (fun _ => h), (fun h => by cases h)⟩

theorem GI.append {α β γ : Type} {a b : Buf p Z} {r : Except Fault α} {s : Except Fault β} {t : Except Fault γ} (ha : GI O σ a r)
    (hb : GI O σ b s) (ht : ∀ v, t = .ok v → (∃ v, r = .ok v) ∧ ∃ v, s = .ok v)
    (hd : t = .error .divZero → r = .error .divZero ∨ s = .error .divZero) : GI O σ (a ++ b) t := by
  refine ⟨ha.guards.append hb.guards, fun v hv => ?_, fun h => ?_, fun h => ?_⟩
  · obtain ⟨⟨v1, h1⟩, v2, h2⟩ := ht v hv
    exact ha.guards.pass_append.2 ⟨ha.pass v1 h1, hb.pass v2 h2⟩
  · obtain ⟨h1, h2⟩ := ha.guards.pass_append.1 h
    intro h3
    rcases hd h3 with h4 | h4
    · exact ha.safe h1 h4
    · exact hb.safe h2 h4
  · rcases ha.guards.execL_append.1 h with ⟨_, h1⟩ | ⟨e, h1, h2⟩
    · exact hb.noDiv h1
    · cases h1; exact ha.noDiv h2

theorem GI.bind {α β γ : Type} {a b : Buf p Z} {r : Except Fault α} {s : Except Fault β} {f : α → β → Except Fault γ}
    (ha : GI O σ a r) (hb : GI O σ b s) (hf : ∀ x y, f x y ≠ .error .divZero) :
    GI O σ (a ++ b) (r >>= fun x => s >>= fun y => f x y) := by
  refine ha.append hb (fun v hv => ?_) fun h => ?_
  · cases r with
    | error e => cases hv
    | ok x => cases s with
      | error e => cases hv
      | ok y => exact ⟨⟨x, rfl⟩, y, rfl⟩
  · cases r with
    | error e => exact .inl (by cases h; rfl)
    | ok x => cases s with
      | error e => exact .inr (by cases h; rfl)
      | ok y => exact absurd h (hf x y)

theorem GI.bindSwap {α β γ : Type} {a b : Buf p Z} {r : Except Fault α} {s : Except Fault β} {f : α → β → Except Fault γ}
    (ha : GI O σ a r) (hb : GI O σ b s) (hf : ∀ x y, f x y ≠ .error .divZero) :
    GI O σ (b ++ a) (r >>= fun x => s >>= fun y => f x y) := by
  refine hb.append ha (fun v hv => ?_) fun h => ?_
  · cases r with
    | error e => cases hv
    | ok x => cases s with
      | error e => cases hv
      | ok y => exact ⟨⟨y, rfl⟩, x, rfl⟩
  · cases r with
    | error e => exact .inr (by cases h; rfl)
    | ok x => cases s with
      | error e => exact .inl (by cases h; rfl)
      | ok y => exact absurd h (hf x y)

theorem GI.map {α γ : Type} {a : Buf p Z} {r : Except Fault α} {f : α → Except Fault γ}
    (ha : GI O σ a r) (hf : ∀ x, f x ≠ .error .divZero) : GI O σ a (r >>= f) := by
  refine ⟨ha.guards, fun v hv => ?_, fun h1 h2 => ?_, ha.noDiv⟩
  · cases r with
    | error e => cases hv
    | ok x => exact ha.pass x rfl
  · cases r with
    | error e => exact ha.safe h1 (by cases h2; rfl)
    | ok x => exact hf x h2

/-- One more guard. -/
theorem GI.guard {α γ : Type} {a : Buf p Z} {s : ZStmt (ZMod p) Z} {r : Except Fault α} {t : Except Fault γ}
    (ha : GI O σ a r) (hs : IsGuard s) (ht : ∀ v, t = .ok v → (∃ v, r = .ok v) ∧ Exec O σ s (.ok σ))
    (hd : Pass O σ a → Exec O σ s (.ok σ) → t = .error .divZero → r = .error .divZero)
    (he : Pass O σ a → ¬ Exec O σ s (.error .divZero)) : GI O σ (a ++ [s]) t := by
  refine ⟨ha.guards.append fun x hx => ?_, fun v hv => ?_, fun h h3 => ?_, fun h => ?_⟩
  · rw [List.mem_singleton] at hx
    exact hx ▸ hs
  · obtain ⟨⟨v1, h1⟩, h2⟩ := ht v hv
    exact ha.guards.pass_append.2 ⟨ha.pass v1 h1, execL_single.2 h2⟩
  · obtain ⟨h1, h2⟩ := ha.guards.pass_append.1 h
    exact ha.safe h1 (hd h1 (execL_single.1 h2) h3)
  · rcases ha.guards.execL_append.1 h with ⟨h0, h1⟩ | ⟨e, h1, h2⟩
    · exact he h0 (execL_single.1 h1)
    · cases h1; exact ha.noDiv h2

theorem GI.cond {α : Type} {c : BExpr (ZMod p)} {gc gt ge : Buf p Z} {t e : Except Fault α}
    (hc : GI O σ gc (evalB σ.env c)) (ht : GI O σ gt t) (he : GI O σ ge e) :
    GI O σ (gc ++ condGuard c gt ge []) (evalB σ.env c >>= fun b => t >>= fun x => e >>= fun y => .ok (if b then x else y)) := by
  unfold condGuard
  have key : ∀ v, (evalB σ.env c >>= fun b => t >>= fun x => e >>= fun y => (.ok (if b then x else y) : Except Fault α)) = .ok v →
      (∃ b, evalB σ.env c = .ok b) ∧ (∃ x, t = .ok x) ∧ ∃ y, e = .ok y := by
    intro v hv
    cases hb : evalB σ.env c with
    | error f => rw [hb] at hv; cases hv
    | ok b =>
      rw [hb] at hv
      cases t with
      | error f => cases hv
      | ok x => cases e with
        | error f => cases hv
        | ok y => exact ⟨⟨b, rfl⟩, ⟨x, rfl⟩, y, rfl⟩
  have key2 : (evalB σ.env c >>= fun b => t >>= fun x => e >>= fun y => (.ok (if b then x else y) : Except Fault α)) = .error .divZero →
      evalB σ.env c = .error .divZero ∨ t = .error .divZero ∨ e = .error .divZero := by
    intro hv
    cases hb : evalB σ.env c with
    | error f => rw [hb] at hv; cases hv; exact .inl rfl
    | ok b =>
      rw [hb] at hv
      cases t with
      | error f => cases hv; exact .inr (.inl rfl)
      | ok x => cases e with
        | error f => cases hv; exact .inr (.inr rfl)
        | ok y => cases hv
  split
  · rename_i h
    simp only [Bool.and_eq_true, List.isEmpty_iff] at h
    obtain ⟨rfl, rfl⟩ := h
    rw [List.append_nil]
    refine ⟨hc.guards, fun v hv => ?_, fun h1 h2 => ?_, hc.noDiv⟩
    · obtain ⟨⟨b, h1⟩, _⟩ := key v hv
      exact hc.pass b h1
    · rcases key2 h2 with h | h | h
      · exact hc.safe h1 h
      · exact ht.safe .nil h
      · exact he.safe .nil h
  · rw [List.nil_append]
    refine hc.guard (.ifElse ht.guards he.guards) (fun v hv => ?_) (fun h1 h2 h3 => ?_) fun h1 h2 => ?_
    · obtain ⟨⟨b, h1⟩, ⟨x, h2⟩, y, h3⟩ := key v hv
      exact ⟨⟨b, h1⟩, .ifElse h1 (ht.pass x h2) (he.pass y h3)⟩
    · cases h2 with
      | ifElse a b d =>
        have := ht.guards.frame b
        subst this
        rcases key2 h3 with h | h | h
        · exact h
        · exact absurd h (ht.safe b)
        · exact absurd h (he.safe d)
    · cases h2 with
      | ifElse a b d =>
        have := ht.guards.frame b
        subst this
        exact he.noDiv d
      | ifFault a => exact hc.safe h1 a
      | thenFault a b => exact ht.noDiv b

theorem exec_assert_ok {e : BExpr (ZMod p)} {err : RuntimeError} :
    Exec O σ (.assertion e err) (.ok σ) ↔ evalB σ.env e = .ok true := by
  constructor
  · intro h; cases h; assumption
  · exact .assertOk

/-- An assertion that is not a conjunction. -/
theorem exec_assert_error {e : BExpr (ZMod p)} {err : RuntimeError} (hn : ∀ c, Conjunct c e → c = e) {f : Fault} :
    Exec O σ (.assertion e err) (.error f) ↔ (f = .assertionFailed ∧ evalB σ.env e = .ok false) ∨ evalB σ.env e = .error f := by
  constructor
  · intro h
    cases h with
    | assertFailed h => exact .inl ⟨rfl, h⟩
    | assertFault hc h => rw [hn _ hc] at h; exact .inr h
  · rintro (⟨rfl, h⟩ | h)
    · exact .assertFailed h
    · exact .assertFault (.self e) h

theorem conjunct_not {e c : BExpr (ZMod p)} (h : Conjunct c (.not e)) : c = .not e := by cases h; rfl
theorem conjunct_lt {l r : FExpr (ZMod p)} {c : BExpr (ZMod p)} (h : Conjunct c (.fieldLt l r)) : c = .fieldLt l r := by cases h; rfl

theorem selectVal_noDiv {α : Type} (l : List α) (i : ℕ) : selectVal l i ≠ .error .divZero := by
  unfold selectVal
  split <;> simp

theorem GI.div {a b : Buf p Z} {l r : FExpr (ZMod p)} (ha : GI O σ a (evalF σ.env l)) (hb : GI O σ b (evalF σ.env r)) :
    GI O σ (a ++ b ++ [fieldDivGuard r]) (evalF σ.env (.div l r)) := by
  refine (GI.bind (f := fun x y => (.ok (x, y) : Except Fault _)) ha hb fun _ _ => by simp).guard (.assertion _ _) (fun v hv => ?_) (fun h1 h2 h3 => ?_) fun h1 h2 => ?_
  · simp only [evalF] at hv
    cases hl : evalF σ.env l with
    | error f => rw [hl] at hv; cases hv
    | ok x =>
      rw [hl] at hv
      cases hr : evalF σ.env r with
      | error f => rw [hr] at hv; cases hv
      | ok y =>
        rw [hr] at hv
        refine ⟨⟨(x, y), rfl⟩, exec_assert_ok.2 ?_⟩
        have hy : y ≠ 0 := by
          rintro rfl
          simp [okB, errB] at hv
        simp [evalB, hr, evalF, okB, errB, hy]
  · rw [fieldDivGuard, exec_assert_ok] at h2
    cases hr : evalF σ.env r with
    | error f => simp [evalB, hr, okB, errB] at h2
    | ok y =>
      have hy : y ≠ 0 := by simpa [evalB, hr, evalF, okB, errB] using h2
      cases hl : evalF σ.env l with
      | error f =>
        simp only [evalF, hl, okB, errB] at h3
        cases h3
        rfl
      | ok x => simp [evalF, hl, hr, okB, errB, hy] at h3
  · rw [fieldDivGuard, exec_assert_error (fun c hc => conjunct_not hc)] at h2
    rcases h2 with ⟨h, _⟩ | h2
    · cases h
    · cases hr : evalF σ.env r with
      | ok y => simp [evalB, hr, evalF, okB, errB] at h2
      | error f =>
        have hf : f = .divZero := by simpa [evalB, hr, evalF, okB, errB] using h2
        subst hf
        exact absurd hr (hb.safe (ha.guards.pass_append.1 h1).2)

theorem GI.udiv {a b : Buf p Z} {w : ℕ} {l r : UExpr (ZMod p)} (ha : GI O σ a (evalU σ.env l)) (hb : GI O σ b (evalU σ.env r)) :
    GI O σ (a ++ b ++ [uintDivGuard w r]) (evalUI σ.env w (.div l r)) := by
  refine (GI.bind (f := fun x y => (.ok (x, y) : Except Fault _)) ha hb fun _ _ => by simp).guard (.assertion _ _) (fun v hv => ?_) (fun h1 h2 h3 => ?_) fun h1 h2 => ?_
  · simp only [evalUI] at hv
    cases hl : evalU σ.env l with
    | error f => rw [hl] at hv; cases hv
    | ok x =>
      rw [hl] at hv
      cases hr : evalU σ.env r with
      | error f => rw [hr] at hv; cases hv
      | ok y =>
        rw [hr] at hv
        refine ⟨⟨(x, y), rfl⟩, exec_assert_ok.2 ?_⟩
        have hy : y ≠ 0 := by
          rintro rfl
          simp [okB, errB] at hv
        simp [evalB, hr, evalU, evalUI, okB, errB, hy]
  · cases hl : evalU σ.env l with
    | error f =>
      simp only [evalUI, hl, okB, errB] at h3
      cases h3
      rfl
    | ok x =>
      cases hr : evalU σ.env r with
      | error f =>
        simp only [evalUI, hl, hr, okB, errB] at h3
        cases h3
        rfl
      | ok y =>
        simp only [evalUI, hl, hr, okB, errB] at h3
        split at h3 <;> cases h3
  · rw [uintDivGuard, exec_assert_error (fun c hc => conjunct_not hc)] at h2
    rcases h2 with ⟨h, _⟩ | h2
    · cases h
    · cases hr : evalU σ.env r with
      | ok y => simp [evalB, hr, evalU, evalUI, okB, errB] at h2
      | error f =>
        have hf : f = .divZero := by simpa [evalB, hr, evalU, evalUI, okB, errB] using h2
        subst hf
        exact absurd hr (hb.safe (ha.guards.pass_append.1 h1).2)

/-! ### Comparisons -/

theorem lt_guards_hold (hp : 2 < p) {a b : ZMod p} (ha : a.val < 2 ^ (Fld.requiredBits p - 2))
    (hb : b.val < 2 ^ (Fld.requiredBits p - 2)) :
    (ltOffset p + (a - b)).val < (ltMax p).val ∧ b - a ≠ ltOffset p := by
  have h2 := Fld.requiredBits_ge_two (p := p)
  have h3 : 2 ^ (Fld.requiredBits p - 2 + 1) < p := by
    have := Fld.two_pow_lt (p := p) (by omega)
    rwa [show Fld.requiredBits p - 2 + 1 = Fld.requiredBits p - 1 by omega]
  have hmax : (ltMax p).val = 2 ^ (Fld.requiredBits p - 2 + 1) := by
    rw [ltMax, show (2 : ZMod p) ^ (Fld.requiredBits p - 2 + 1) = ((2 ^ (Fld.requiredBits p - 2 + 1) : ℕ) : ZMod p) by push_cast; rfl]
    exact ZMod.val_cast_of_lt h3
  generalize hk : Fld.requiredBits p - 2 = k at *
  rw [pow_succ] at h3 hmax
  have hofs : ltOffset p = ((2 ^ k : ℕ) : ZMod p) := by rw [ltOffset, hk]; push_cast; rfl
  constructor
  · have : ltOffset p + (a - b) = ((2 ^ k + a.val - b.val : ℕ) : ZMod p) := by
      rw [hofs, Nat.cast_sub (by omega)]
      push_cast
      rw [ZMod.natCast_zmod_val, ZMod.natCast_zmod_val]
      ring
    rw [this, ZMod.val_cast_of_lt (by omega), hmax]
    omega
  · intro h
    have : b = ((a.val + 2 ^ k : ℕ) : ZMod p) := by
      rw [Nat.cast_add, ← hofs, ← h, ZMod.natCast_zmod_val]
      ring
    rw [this, ZMod.val_cast_of_lt (by omega)] at hb
    omega

theorem evalF_pair {env : ZEnv p} {l r : FExpr (ZMod p)} :
    (evalF env l >>= fun x => evalF env r >>= fun y => (.ok (x, y) : Except Fault (ZMod p × ZMod p))) = .error .divZero ↔
      evalF env l = .error .divZero ∨ (∃ x, evalF env l = .ok x) ∧ evalF env r = .error .divZero := by
  cases evalF env l with
  | error f => simp [okB, errB]
  | ok x =>
    cases evalF env r with
    | error f => simp [okB, errB]
    | ok y => simp [okB, errB]

theorem evalB_lt_divZero {env : ZEnv p} {l r : FExpr (ZMod p)} (h : evalB env (.fieldLt l r) = .error .divZero) :
    (evalF env l >>= fun x => evalF env r >>= fun y => (.ok (x, y) : Except Fault (ZMod p × ZMod p))) = .error .divZero := by
  rw [evalF_pair]
  simp only [evalB] at h
  cases hl : evalF env l with
  | error f => rw [hl] at h; cases h; exact .inl rfl
  | ok x =>
    rw [hl] at h
    cases hr : evalF env r with
    | error f => rw [hr] at h; cases h; exact .inr ⟨⟨x, rfl⟩, rfl⟩
    | ok y =>
      rw [hr] at h
      simp only [okB] at h
      split at h <;> cases h

theorem GI.lt (hp : 2 < p) {a b : Buf p Z} {l r : FExpr (ZMod p)} (ha : GI O σ a (evalF σ.env l))
    (hb : GI O σ b (evalF σ.env r)) (hc : (l.isConst || r.isConst) = false) :
    GI O σ (a ++ b ++ [ltGuardMax l r] ++ [ltGuardMin l r]) (evalB σ.env (.fieldLt l r)) := by
  have key : ∀ v, evalB σ.env (.fieldLt l r) = .ok v → ∃ x y, evalF σ.env l = .ok x ∧ evalF σ.env r = .ok y ∧
      (ltOffset p + (x - y)).val < (ltMax p).val ∧ y - x ≠ ltOffset p := by
    intro v hv
    simp only [evalB] at hv
    cases hl : evalF σ.env l with
    | error f => rw [hl] at hv; cases hv
    | ok x =>
      rw [hl] at hv
      cases hr : evalF σ.env r with
      | error f => rw [hr] at hv; cases hv
      | ok y =>
        rw [hr] at hv
        simp only [okB, hc] at hv
        split at hv
        · rename_i h
          rcases h with h | ⟨h1, h2⟩
          · cases h
          · exact ⟨x, y, rfl, rfl, lt_guards_hold hp h1 h2⟩
        · cases hv
  have hpair := GI.bind (f := fun x y => (.ok (x, y) : Except Fault _)) ha hb fun _ _ => by simp
  refine GI.guard (r := evalB σ.env (.fieldLt l r)) (hpair.guard (.assertion _ _) (fun v hv => ?_)
    (fun h1 h2 h3 => evalB_lt_divZero h3) fun h1 h2 => ?_)
    (.assertion _ _) (fun v hv => ⟨⟨v, hv⟩, ?_⟩) (fun _ _ h => h) fun h1 h2 => ?_
  · obtain ⟨x, y, hx, hy, h1, h2⟩ := key v hv
    refine ⟨⟨(x, y), by rw [hx, hy]; rfl⟩, exec_assert_ok.2 ?_⟩
    simp only [evalB, evalF, hx, hy, okB, FExpr.isConst, Bool.or_true]
    rw [if_pos (.inl rfl)]
    simp only [h1, decide_true]
  · obtain ⟨g1, g2⟩ := ha.guards.pass_append.1 h1
    rw [ltGuardMax, exec_assert_error (fun c hc => conjunct_lt hc)] at h2
    rcases h2 with ⟨h, _⟩ | h2
    · cases h
    · simp only [evalB, evalF, okB, FExpr.isConst, Bool.or_true] at h2
      cases hl : evalF σ.env l with
      | error f => rw [hl] at h2; cases h2; exact ha.safe g1 hl
      | ok x =>
        rw [hl] at h2
        cases hr : evalF σ.env r with
        | error f => rw [hr] at h2; cases h2; exact hb.safe g2 hr
        | ok y =>
          rw [hr] at h2
          simp only [okB] at h2
          rw [if_pos (.inl rfl)] at h2
          cases h2
  · obtain ⟨x, y, hx, hy, h1, h2⟩ := key v hv
    refine exec_assert_ok.2 ?_
    simp only [evalB, evalF, hx, hy, okB]
    simp [h2]
  · obtain ⟨g0, _⟩ := (ha.guards.append hb.guards).pass_append.1 h1
    obtain ⟨g1, g2⟩ := ha.guards.pass_append.1 g0
    rw [ltGuardMin, exec_assert_error (fun c hc => conjunct_not hc)] at h2
    rcases h2 with ⟨h, _⟩ | h2
    · cases h
    · simp only [evalB, evalF, okB] at h2
      cases hr : evalF σ.env r with
      | error f => rw [hr] at h2; cases h2; exact hb.safe g2 hr
      | ok y =>
        rw [hr] at h2
        cases hl : evalF σ.env l with
        | error f => rw [hl] at h2; cases h2; exact ha.safe g1 hl
        | ok x => rw [hl] at h2; cases h2

/-- When the guards of a comparison of two non-constants hold, the difference of the operands is smaller than
`2^(bits-2)` in absolute value. -/
theorem lt_guards_mean {l r : FExpr (ZMod p)} (h1 : Exec O σ (ltGuardMax l r) (.ok σ))
    (h2 : Exec O σ (ltGuardMin l r) (.ok σ)) : ∃ x y, evalF σ.env l = .ok x ∧ evalF σ.env r = .ok y ∧
      (ltOffset p + (x - y)).val < (ltMax p).val ∧ y - x ≠ ltOffset p := by
  rw [ltGuardMax, exec_assert_ok] at h1
  rw [ltGuardMin, exec_assert_ok] at h2
  simp only [evalB, evalF, okB, FExpr.isConst, Bool.or_true] at h1 h2
  cases hl : evalF σ.env l with
  | error f => rw [hl] at h1; cases h1
  | ok x =>
    rw [hl] at h1 h2
    cases hr : evalF σ.env r with
    | error f => rw [hr] at h1; cases h1
    | ok y =>
      rw [hr] at h1 h2
      simp only [okB] at h1 h2
      rw [if_pos (.inl rfl)] at h1
      refine ⟨x, y, rfl, rfl, by simpa using h1, by simpa using h2⟩

end Zok.Px
