import Verif.Lemmas.PanicExec
import Verif.Spec.Panics

/-
Without casts, no execution uses a field element other than 0 and 1 as a boolean.
-/

set_option linter.unusedSectionVars false

namespace Zok
open Px
variable {p : ℕ} {Z : Type} [Fact p.Prime] {O : Oracle p Z}

theorem bind_ne {α β : Type} {r : Except Fault α} {k : α → Except Fault β} {f : Fault} (h : r ≠ .error f) (hk : ∀ v, k v ≠ .error f) :
    (r >>= k) ≠ .error f := by
  cases r with
  | error e => intro h'; rw [errB] at h'; cases h'; exact h rfl
  | ok v => rw [okB]; exact hk v

theorem selectVal_notBool {α : Type} (l : List α) (i : ℕ) : selectVal l i ≠ .error .notBool := by
  unfold selectVal
  split <;> simp

mutual
theorem nbF {env : ZEnv p} : ∀ e : FExpr (ZMod p), evalF env e ≠ .error .notBool
  | .value _ => by simp [evalF]
  | .ident x => by simp only [evalF]; split <;> simp
  | .select es i => by
    simp only [evalF]
    exact bind_ne (nbU i) fun _ => bind_ne (nbFs es) fun _ => selectVal_notBool _ _
  | .add l r => by
    simp only [evalF]
    exact bind_ne (nbF l) fun _ => bind_ne (nbF r) fun _ => by simp
  | .sub l r => by
    simp only [evalF]
    exact bind_ne (nbF l) fun _ => bind_ne (nbF r) fun _ => by simp
  | .mult l r => by
    simp only [evalF]
    exact bind_ne (nbF l) fun _ => bind_ne (nbF r) fun _ => by simp
  | .div l r => by
    simp only [evalF]
    exact bind_ne (nbF l) fun _ => bind_ne (nbF r) fun _ => by split <;> simp
  | .pow l r => by
    simp only [evalF]
    exact bind_ne (nbF l) fun _ => bind_ne (nbU r) fun _ => by simp
  | .and _ _ => by simp [evalF]
  | .or _ _ => by simp [evalF]
  | .xor _ _ => by simp [evalF]
  | .leftShift _ _ => by simp [evalF]
  | .rightShift _ _ => by simp [evalF]
  | .cond c t e => by
    simp only [evalF]
    exact bind_ne (nbB c) fun _ => bind_ne (nbF t) fun _ => bind_ne (nbF e) fun _ => by simp
theorem nbFs {env : ZEnv p} : ∀ es : List (FExpr (ZMod p)), evalFs env es ≠ .error .notBool
  | [] => by simp [evalFs]
  | e :: es => by
    simp only [evalFs]
    exact bind_ne (nbF e) fun _ => bind_ne (nbFs es) fun _ => by simp
theorem nbB {env : ZEnv p} : ∀ e : BExpr (ZMod p), evalB env e ≠ .error .notBool
  | .value _ => by simp [evalB]
  | .ident x => by simp only [evalB]; split <;> simp
  | .select es i => by
    simp only [evalB]
    exact bind_ne (nbU i) fun _ => bind_ne (nbBs es) fun _ => selectVal_notBool _ _
  | .fieldLt l r => by
    simp only [evalB]
    exact bind_ne (nbF l) fun _ => bind_ne (nbF r) fun _ => by split <;> simp
  | .fieldLe l r => by
    simp only [evalB]
    exact bind_ne (nbF l) fun _ => bind_ne (nbF r) fun _ => by split <;> simp
  | .fieldEq l r => by
    simp only [evalB]
    exact bind_ne (nbF l) fun _ => bind_ne (nbF r) fun _ => by simp
  | .uintLt l r => by
    simp only [evalB]
    exact bind_ne (nbU l) fun _ => bind_ne (nbU r) fun _ => by simp
  | .uintLe l r => by
    simp only [evalB]
    exact bind_ne (nbU l) fun _ => bind_ne (nbU r) fun _ => by simp
  | .uintEq l r => by
    simp only [evalB]
    exact bind_ne (nbU l) fun _ => bind_ne (nbU r) fun _ => by simp
  | .boolEq l r => by
    simp only [evalB]
    exact bind_ne (nbB l) fun _ => bind_ne (nbB r) fun _ => by simp
  | .or l r => by
    simp only [evalB]
    exact bind_ne (nbB l) fun _ => bind_ne (nbB r) fun _ => by simp
  | .and l r => by
    simp only [evalB]
    exact bind_ne (nbB l) fun _ => bind_ne (nbB r) fun _ => by simp
  | .not e => by
    simp only [evalB]
    exact bind_ne (nbB e) fun _ => by simp
  | .cond c t e => by
    simp only [evalB]
    exact bind_ne (nbB c) fun _ => bind_ne (nbB t) fun _ => bind_ne (nbB e) fun _ => by simp
theorem nbBs {env : ZEnv p} : ∀ es : List (BExpr (ZMod p)), evalBs env es ≠ .error .notBool
  | [] => by simp [evalBs]
  | e :: es => by
    simp only [evalBs]
    exact bind_ne (nbB e) fun _ => bind_ne (nbBs es) fun _ => by simp
theorem nbU {env : ZEnv p} : ∀ e : UExpr (ZMod p), evalU env e ≠ .error .notBool
  | .mk w _ i => by
    simp only [evalU]
    exact nbUI w i
theorem nbUs {env : ZEnv p} : ∀ es : List (UExpr (ZMod p)), evalUs env es ≠ .error .notBool
  | [] => by simp [evalUs]
  | e :: es => by
    simp only [evalUs]
    exact bind_ne (nbU e) fun _ => bind_ne (nbUs es) fun _ => by simp
theorem nbUI {env : ZEnv p} : ∀ (w : ℕ) (e : UInner (ZMod p)), evalUI env w e ≠ .error .notBool
  | _, .value _ => by simp [evalUI]
  | _, .ident x => by simp only [evalUI]; split <;> (try split) <;> simp
  | w, .select es i => by
    simp only [evalUI]
    exact bind_ne (nbU i) fun _ => bind_ne (nbUs es) fun _ => selectVal_notBool _ _
  | w, .add l r => by
    simp only [evalUI]
    exact bind_ne (nbU l) fun _ => bind_ne (nbU r) fun _ => by simp
  | w, .sub l r => by
    simp only [evalUI]
    exact bind_ne (nbU l) fun _ => bind_ne (nbU r) fun _ => by simp
  | w, .mult l r => by
    simp only [evalUI]
    exact bind_ne (nbU l) fun _ => bind_ne (nbU r) fun _ => by simp
  | w, .xor l r => by
    simp only [evalUI]
    exact bind_ne (nbU l) fun _ => bind_ne (nbU r) fun _ => by simp
  | w, .and l r => by
    simp only [evalUI]
    exact bind_ne (nbU l) fun _ => bind_ne (nbU r) fun _ => by simp
  | w, .or l r => by
    simp only [evalUI]
    exact bind_ne (nbU l) fun _ => bind_ne (nbU r) fun _ => by simp
  | w, .leftShift l r => by
    simp only [evalUI]
    exact bind_ne (nbU l) fun _ => bind_ne (nbU r) fun _ => by simp
  | w, .rightShift l r => by
    simp only [evalUI]
    exact bind_ne (nbU l) fun _ => bind_ne (nbU r) fun _ => by simp
  | w, .div l r => by
    simp only [evalUI]
    exact bind_ne (nbU l) fun _ => bind_ne (nbU r) fun _ => by split <;> simp
  | w, .rem l r => by
    simp only [evalUI]
    exact bind_ne (nbU l) fun _ => bind_ne (nbU r) fun _ => by split <;> simp
  | w, .not e => by
    simp only [evalUI]
    exact bind_ne (nbU e) fun _ => by simp
  | w, .cond c t e => by
    simp only [evalUI]
    exact bind_ne (nbB c) fun _ => bind_ne (nbU t) fun _ => bind_ne (nbU e) fun _ => by simp
end

theorem nbZ {env : ZEnv p} (e : ZExpr (ZMod p)) : evalZ env e ≠ .error .notBool := by
  cases e with
  | field e => exact bind_ne (nbF e) fun _ => by simp
  | bool e => exact bind_ne (nbB e) fun _ => by simp
  | uint e => exact bind_ne (nbU e) fun _ => by simp

theorem nbZs {env : ZEnv p} (es : List (ZExpr (ZMod p))) : evalZs env es ≠ .error .notBool := by
  induction es with
  | nil => simp [evalZs]
  | cons e es ih =>
    simp only [evalZs]
    exact bind_ne (nbZ e) fun _ => bind_ne ih fun _ => by simp

theorem nbAsms {σ : ZState p} {ss : List (ZAsm (ZMod p) Z)} : ¬ ExecAsms O σ ss (.error .notBool) := by
  induction ss generalizing σ with
  | nil => intro h; cases h
  | cons s ss ih =>
    intro h
    cases h with
    | cons _ h => exact ih h
    | fault h =>
      cases h with
      | faultL h => exact nbF _ h
      | faultR _ h => exact nbF _ h

mutual
theorem nbStmt : ∀ (s : ZStmt (ZMod p) Z) {σ : ZState p}, s.NoCast → ¬ Exec O σ s (.error .notBool)
  | .ret _, _, _, h => by cases h with | retFault h => exact nbZs _ h
  | .definition _ _, _, _, h => by cases h with | definitionFault h => exact nbZ _ h
  | .ifElse c t e, σ, hn, h => by
    have ht := fun {σ} => nbStmts t (σ := σ) hn.1
    have he := fun {σ} => nbStmts e (σ := σ) hn.2
    cases h with
    | ifElse _ _ h => exact he h
    | ifFault h => exact nbB _ h
    | thenFault _ h => exact ht h
  | .assertion _ _, _, _, h => by cases h with | assertFault _ h => exact nbB _ h
  | .multiDef xs embed g args, σ, hn, h => by
    cases h with
    | argsFault h => exact nbZs _ h
    | embedFault _ h => cases h with | castFault => exact hn rfl
  | .log _, _, _, h => by cases h with | logFault h => exact nbZs _ h
  | .assembly _, _, _, h => by cases h with | assembly h => exact nbAsms h
theorem nbStmts : ∀ (ss : List (ZStmt (ZMod p) Z)) {σ : ZState p}, ZStmt.NoCastL ss → ¬ ExecL O σ ss (.error .notBool)
  | [], _, _, h => by cases h
  | s :: ss, σ, hn, h => by
    have h1 := fun {σ} => nbStmt s (σ := σ) hn.1
    have h2 := fun {σ} => nbStmts ss (σ := σ) hn.2
    cases h with
    | cons _ h => exact h2 h
    | fault h => exact h1 h
end

/-- A function without casts does not fail because of one. -/
theorem noCast_notBool {f : ZFun (ZMod p) Z} (h : ZStmt.NoCastL f.body) (ins : List (ZMod p)) : ¬ Faults O f ins .notBool :=
  fun ⟨_, _, h2⟩ => nbStmts f.body h h2

end Zok
