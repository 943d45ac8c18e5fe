import Verif.Model.Propagator
import Verif.Spec.ZirType
import Verif.Lemmas.ZirBeq
import Verif.Lemmas.Flat
import Mathlib.Tactic

/- Constant propagation preserves values. -/

namespace Zok.Prop'
open Zok
variable {p : ℕ} [Fact p.Prime]

theorem exc_bind_ok {ε α β : Type} {x : Except ε α} {f : α → Except ε β} {b : β} (h : (x >>= f) = .ok b) :
    ∃ a, x = .ok a ∧ f a = .ok b := by
  cases x with
  | error e => cases h
  | ok a => exact ⟨a, rfl, h⟩

theorem selectVal_mem {α : Type} {l : List α} {i : ℕ} {a : α} (h : selectVal l i = .ok a) : l[i]? = some a := by
  unfold selectVal at h
  split at h
  · rename_i h'; cases h; exact h'
  · cases h

mutual
theorem evalU_lt {env : ZEnv p} (he : UintsFit env) : ∀ (e : UExpr (ZMod p)) (n : ℕ), TyU e → evalU env e = .ok n →
    n < 2 ^ e.width
  | .mk w _ i, n, ht, h => by
    simp only [TyU] at ht; simp only [evalU] at h
    exact evalUI_lt he w i n ht.2 h
theorem evalUs_lt {env : ZEnv p} (he : UintsFit env) (w : ℕ) : ∀ (l : List (UExpr (ZMod p))) (vs : List ℕ), TyUs w l →
    evalUs env l = .ok vs → ∀ n ∈ vs, n < 2 ^ w
  | [], vs, _, h => by simp only [evalUs] at h; cases h; simp
  | e :: es, vs, ht, h => by
    simp only [TyUs] at ht; simp only [evalUs] at h
    obtain ⟨v, hv, h⟩ := exc_bind_ok h
    obtain ⟨vs', hvs, h⟩ := exc_bind_ok h
    cases h
    have h1 := evalU_lt he e v ht.1.1 hv
    rw [ht.1.2] at h1
    exact List.forall_mem_cons.2 ⟨h1, evalUs_lt he w es vs' ht.2 hvs⟩
theorem evalUI_lt {env : ZEnv p} (he : UintsFit env) (w : ℕ) : ∀ (i : UInner (ZMod p)) (n : ℕ), TyUI w i →
    evalUI env w i = .ok n → n < 2 ^ w
  | .value k, n, ht, h => by simp only [TyUI] at ht; simp only [evalUI] at h; cases h; exact ht
  | .ident x, n, ht, h => by
    simp only [evalUI] at h
    split at h
    · rename_i w' k hx
      split at h
      · rename_i hw; cases h; rw [hw]; exact he _ _ _ hx
      · cases h
    · cases h
  | .select es i, n, ht, h => by
    simp only [TyUI] at ht; simp only [evalUI] at h
    obtain ⟨k, _, h⟩ := exc_bind_ok h
    obtain ⟨vs, hvs, h⟩ := exc_bind_ok h
    exact evalUs_lt he w es vs ht.1 hvs n (List.mem_of_getElem? (selectVal_mem h))
  | .add l r, n, ht, h => by
    simp only [evalUI] at h
    obtain ⟨a, ha, h⟩ := exc_bind_ok h
    obtain ⟨b, hb, h⟩ := exc_bind_ok h
    cases h; exact Nat.mod_lt _ (by positivity)
  | .sub l r, n, ht, h => by
    simp only [evalUI] at h
    obtain ⟨a, ha, h⟩ := exc_bind_ok h
    obtain ⟨b, hb, h⟩ := exc_bind_ok h
    cases h; exact Nat.mod_lt _ (by positivity)
  | .mult l r, n, ht, h => by
    simp only [evalUI] at h
    obtain ⟨a, ha, h⟩ := exc_bind_ok h
    obtain ⟨b, hb, h⟩ := exc_bind_ok h
    cases h; exact Nat.mod_lt _ (by positivity)
  | .div l r, n, ht, h => by
    simp only [evalUI] at h; simp only [TyUI] at ht
    obtain ⟨a, ha, h⟩ := exc_bind_ok h
    obtain ⟨b, hb, h⟩ := exc_bind_ok h
    split at h
    · cases h
    · cases h
      have := evalU_lt he l a ht.1 ha
      rw [ht.2.2.1] at this
      exact lt_of_le_of_lt (Nat.div_le_self _ _) this
  | .rem l r, n, ht, h => by
    simp only [evalUI] at h; simp only [TyUI] at ht
    obtain ⟨a, ha, h⟩ := exc_bind_ok h
    obtain ⟨b, hb, h⟩ := exc_bind_ok h
    split at h
    · cases h
    · cases h
      have := evalU_lt he l a ht.1 ha
      rw [ht.2.2.1] at this
      exact lt_of_le_of_lt (Nat.mod_le _ _) this
  | .xor l r, n, ht, h => by
    simp only [evalUI] at h; simp only [TyUI] at ht
    obtain ⟨a, ha, h⟩ := exc_bind_ok h
    obtain ⟨b, hb, h⟩ := exc_bind_ok h
    cases h
    have h1 := evalU_lt he l a ht.1 ha
    have h2 := evalU_lt he r b ht.2.1 hb
    rw [ht.2.2.1] at h1; rw [ht.2.2.2] at h2
    exact Nat.xor_lt_two_pow h1 h2
  | .and l r, n, ht, h => by
    simp only [evalUI] at h; simp only [TyUI] at ht
    obtain ⟨a, ha, h⟩ := exc_bind_ok h
    obtain ⟨b, hb, h⟩ := exc_bind_ok h
    cases h
    have h2 := evalU_lt he r b ht.2.1 hb
    rw [ht.2.2.2] at h2
    exact Nat.and_lt_two_pow _ h2
  | .or l r, n, ht, h => by
    simp only [evalUI] at h; simp only [TyUI] at ht
    obtain ⟨a, ha, h⟩ := exc_bind_ok h
    obtain ⟨b, hb, h⟩ := exc_bind_ok h
    cases h
    have h1 := evalU_lt he l a ht.1 ha
    have h2 := evalU_lt he r b ht.2.1 hb
    rw [ht.2.2.1] at h1; rw [ht.2.2.2] at h2
    exact Nat.or_lt_two_pow h1 h2
  | .leftShift l r, n, ht, h => by
    simp only [evalUI] at h
    obtain ⟨a, ha, h⟩ := exc_bind_ok h
    obtain ⟨b, hb, h⟩ := exc_bind_ok h
    cases h; exact Nat.mod_lt _ (by positivity)
  | .rightShift l r, n, ht, h => by
    simp only [evalUI] at h; simp only [TyUI] at ht
    obtain ⟨a, ha, h⟩ := exc_bind_ok h
    obtain ⟨b, hb, h⟩ := exc_bind_ok h
    cases h
    have := evalU_lt he l a ht.1 ha
    rw [ht.2.2.1] at this
    exact lt_of_le_of_lt (Nat.div_le_self _ _) this
  | .not l, n, ht, h => by
    simp only [evalUI] at h; simp only [TyUI] at ht
    obtain ⟨a, ha, h⟩ := exc_bind_ok h
    cases h
    have : 0 < 2 ^ w := by positivity
    omega
  | .cond c t e, n, ht, h => by
    simp only [evalUI] at h; simp only [TyUI] at ht
    obtain ⟨b, hb, h⟩ := exc_bind_ok h
    obtain ⟨x, hx, h⟩ := exc_bind_ok h
    obtain ⟨y, hy, h⟩ := exc_bind_ok h
    cases h
    have h1 := evalU_lt he t x ht.2.1 hx
    have h2 := evalU_lt he e y ht.2.2.1 hy
    rw [ht.2.2.2.1] at h1; rw [ht.2.2.2.2] at h2
    split <;> assumption
end

/-! ### Evaluation up to missing variables -/

/-- The evaluation yields `v`, or, if `S` holds, it may be stuck. -/
def Ev {α : Type} (S : Prop) (x : Except Fault α) (v : α) : Prop := x = .ok v ∨ (S ∧ x = .error .stuck)

theorem Ev.ok {α : Type} {S : Prop} (v : α) : Ev S (.ok v) v := .inl rfl
theorem Ev.of_eq {α : Type} {S : Prop} {x : Except Fault α} {v : α} (h : x = .ok v) : Ev S x v := .inl h

theorem Ev.bind {α β : Type} {S : Prop} {x : Except Fault α} {v : α} {f : α → Except Fault β} {w : β}
    (h : Ev S x v) (hf : Ev S (f v) w) : Ev S (x >>= f) w := by
  rcases h with rfl | ⟨hs, rfl⟩
  · exact hf
  · exact .inr ⟨hs, rfl⟩

theorem Ev.eq_of_ok {α : Type} {S : Prop} {v w : α} (h : Ev S (.ok w) v) : w = v := by
  rcases h with h | ⟨_, h⟩
  · cases h; rfl
  · cases h

/-- The environments before and after propagation: constants have the values of the source environment, the other
variables have the same value in both (or, if `S` holds, are missing after propagation). -/
structure Agree (S : Prop) (c : Consts p) (env env' : ZEnv p) : Prop where
  const : ∀ x v, c x = some v → env x = some v
  other : ∀ x, c x = none → env' x = env x ∨ (S ∧ env' x = none)

theorem fval_eq {e : FExpr (ZMod p)} {n : ZMod p} (h : fval? e = some n) : e = .value n := by
  cases e <;> simp_all [fval?]
theorem bval_eq {e : BExpr (ZMod p)} {n : Bool} (h : bval? e = some n) : e = .value n := by
  cases e <;> simp_all [bval?]
theorem uval_eq {e : UInner (ZMod p)} {n : ℕ} (h : uval? e = some n) : e = .value n := by
  cases e <;> simp_all [uval?]

theorem ev_fval {S : Prop} {env : ZEnv p} {e : FExpr (ZMod p)} {n v : ZMod p} (h : fval? e = some n)
    (he : Ev S (evalF env e) v) : v = n := by
  rw [fval_eq h] at he; simp only [evalF] at he; exact he.eq_of_ok.symm
theorem ev_bval {S : Prop} {env : ZEnv p} {e : BExpr (ZMod p)} {n v : Bool} (h : bval? e = some n)
    (he : Ev S (evalB env e) v) : v = n := by
  rw [bval_eq h] at he; simp only [evalB] at he; exact he.eq_of_ok.symm
theorem ev_uval {S : Prop} {env : ZEnv p} {w : ℕ} {e : UInner (ZMod p)} {n v : ℕ} (h : uval? e = some n)
    (he : Ev S (evalUI env w e) v) : v = n := by
  rw [uval_eq h] at he; simp only [evalUI] at he; exact he.eq_of_ok.symm

/-! ### Field operators -/
section
variable {S : Prop} {env : ZEnv p} {l r : FExpr (ZMod p)} {a b : ZMod p}

theorem ev_foldAdd (hl : Ev S (evalF env l) a) (hr : Ev S (evalF env r) b) : Ev S (evalF env (foldAdd l r)) (a + b) := by
  unfold foldAdd
  split
  · rename_i h; rw [ev_fval h hl, zero_add]; exact hr
  split
  · rename_i h; rw [ev_fval h hr, add_zero]; exact hl
  split
  · rename_i h1 h2; rw [ev_fval h1 hl, ev_fval h2 hr]; exact .of_eq (by simp only [evalF])
  · simp only [evalF]; exact hl.bind (hr.bind (.ok _))

theorem ev_foldSub (hl : Ev S (evalF env l) a) (hr : Ev S (evalF env r) b) : Ev S (evalF env (foldSub l r)) (a - b) := by
  unfold foldSub
  split
  · rename_i h; rw [ev_fval h hr, sub_zero]; exact hl
  split
  · rename_i h1 h2; rw [ev_fval h1 hl, ev_fval h2 hr]; exact .of_eq (by simp only [evalF])
  · simp only [evalF]; exact hl.bind (hr.bind (.ok _))

theorem ev_foldMult (hl : Ev S (evalF env l) a) (hr : Ev S (evalF env r) b) :
    Ev S (evalF env (foldMult l r)) (a * b) := by
  unfold foldMult
  split
  · rename_i h
    have : a * b = 0 := by
      rcases h with h | h
      · rw [ev_fval h hl, zero_mul]
      · rw [ev_fval h hr, mul_zero]
    rw [this]; exact .of_eq (by simp only [evalF])
  split
  · rename_i h; rw [ev_fval h hl, one_mul]; exact hr
  split
  · rename_i h; rw [ev_fval h hr, mul_one]; exact hl
  split
  · rename_i h1 h2; rw [ev_fval h1 hl, ev_fval h2 hr]; exact .of_eq (by simp only [evalF])
  · simp only [evalF]; exact hl.bind (hr.bind (.ok _))

theorem ev_foldDiv (hl : Ev S (evalF env l) a) (hr : Ev S (evalF env r) b) (hb : b ≠ 0) :
    ∃ e, foldDiv l r = .ok e ∧ Ev S (evalF env e) (a / b) := by
  unfold foldDiv
  split
  · rename_i h; exact absurd (ev_fval h hr) hb
  split
  · rename_i h; refine ⟨_, rfl, ?_⟩; rw [ev_fval h hr, div_one]; exact hl
  split
  · rename_i h1 h2; refine ⟨_, rfl, ?_⟩; rw [ev_fval h1 hl, ev_fval h2 hr]; exact .of_eq (by simp only [evalF])
  · refine ⟨_, rfl, ?_⟩; simp only [evalF]; refine hl.bind (hr.bind ?_); rw [if_neg hb]; exact .ok _

theorem ev_foldPow {n : UInner (ZMod p)} {k : ℕ} (hl : Ev S (evalF env l) a) (hn : Ev S (evalUI env 32 n) k) :
    Ev S (evalF env (foldPow l n)) (a ^ k) := by
  unfold foldPow
  split
  · rename_i h; rw [ev_uval h hn, pow_zero]; exact .of_eq (by simp only [evalF])
  split
  · rename_i h; rw [ev_uval h hn, pow_one]; exact hl
  split
  · rename_i h1 h2; rw [ev_fval h1 hl, ev_uval h2 hn]; exact .of_eq (by simp only [evalF])
  · simp only [evalF, evalU]; exact hl.bind (hn.bind (.ok _))

/-! ### Comparisons -/

theorem ev_cmp {α : Type} {cst : Prop} [Decidable cst] {x : α} (h : cst) : Ev S (if cst then (.ok x : Except Fault α) else .error .dynamicRange) x := by
  rw [if_pos h]; exact .ok _

theorem ev_foldFieldLt {l' r' : FExpr (ZMod p)} (hl : Ev S (evalF env l) a) (hr : Ev S (evalF env r) b)
    (hcl : l'.isConst = true → l.isConst = true) (hcr : r'.isConst = true → r.isConst = true)
    (hd : cmpDefined p (l'.isConst || r'.isConst) a b) :
    Ev S (evalB env (foldFieldLt l r)) (decide (a.val < b.val)) := by
  unfold foldFieldLt
  split
  · rename_i h1 h2; rw [ev_fval h1 hl, ev_fval h2 hr]; exact .of_eq (by simp only [evalB])
  split
  · rename_i h; rw [ev_fval h hr]; exact .of_eq (by simp [evalB])
  split
  · rename_i h
    refine .of_eq ?_
    simp only [evalB]
    have h1 := ev_fval h hl
    have hp : 1 < p := (Fact.out : p.Prime).one_lt
    have : ¬ a.val < b.val := by
      rw [h1, Fld.maxValue]
      have hb := ZMod.val_lt b
      have : (-1 : ZMod p).val = p - 1 := by
        obtain ⟨q, rfl⟩ : ∃ q, p = q + 1 := ⟨p - 1, by omega⟩
        rw [ZMod.val_neg_one]; rfl
      omega
    simp [this]
  · simp only [evalB]
    refine hl.bind (hr.bind (ev_cmp ?_))
    rcases hd with hd | hd
    · left
      rcases (Bool.or_eq_true_iff.1 hd) with h | h
      · simp [hcl h]
      · simp [hcr h]
    · exact .inr hd

theorem ev_foldFieldLe {l' r' : FExpr (ZMod p)} (hl : Ev S (evalF env l) a) (hr : Ev S (evalF env r) b)
    (hcl : l'.isConst = true → l.isConst = true) (hcr : r'.isConst = true → r.isConst = true)
    (hd : cmpDefined p (l'.isConst || r'.isConst) a b) :
    Ev S (evalB env (foldFieldLe l r)) (decide (a.val ≤ b.val)) := by
  unfold foldFieldLe
  split
  · rename_i h1 h2; rw [ev_fval h1 hl, ev_fval h2 hr]; exact .of_eq (by simp only [evalB])
  · simp only [evalB]
    refine hl.bind (hr.bind (ev_cmp ?_))
    rcases hd with hd | hd
    · left
      rcases (Bool.or_eq_true_iff.1 hd) with h | h
      · simp [hcl h]
      · simp [hcr h]
    · exact .inr hd


theorem ev_foldFieldEq (hl : Ev S (evalF env l) a) (hr : Ev S (evalF env r) b) (hab : l = r → a = b) :
    Ev S (evalB env (foldFieldEq l r)) (decide (a = b)) := by
  unfold foldFieldEq
  split
  · rename_i h1 h2; rw [ev_fval h1 hl, ev_fval h2 hr]; exact .of_eq (by simp only [evalB])
  split
  · rename_i h; rw [hab (FExpr.eq_of_beq _ _ h)]; exact .of_eq (by simp [evalB])
  · simp only [evalB]; exact hl.bind (hr.bind (.ok _))
end

section
variable {S : Prop} {env : ZEnv p} {l r : UExpr (ZMod p)} {a b : ℕ}

theorem evalU_eq (e : UExpr (ZMod p)) : evalU env e = evalUI env e.width e.inner := by
  cases e; simp only [evalU, UExpr.width, UExpr.inner]

theorem ev_foldUintLt (hl : Ev S (evalU env l) a) (hr : Ev S (evalU env r) b) :
    Ev S (evalB env (foldUintLt l r)) (decide (a < b)) := by
  unfold foldUintLt
  split
  · rename_i h1 h2; rw [evalU_eq] at hl hr; rw [ev_uval h1 hl, ev_uval h2 hr]; exact .of_eq (by simp only [evalB])
  · simp only [evalB]; exact hl.bind (hr.bind (.ok _))

theorem ev_foldUintLe (hl : Ev S (evalU env l) a) (hr : Ev S (evalU env r) b) :
    Ev S (evalB env (foldUintLe l r)) (decide (a ≤ b)) := by
  unfold foldUintLe
  split
  · rename_i h1 h2; rw [evalU_eq] at hl hr; rw [ev_uval h1 hl, ev_uval h2 hr]; exact .of_eq (by simp only [evalB])
  · simp only [evalB]; exact hl.bind (hr.bind (.ok _))

theorem ev_foldUintEq (hl : Ev S (evalU env l) a) (hr : Ev S (evalU env r) b) (hab : l = r → a = b) :
    Ev S (evalB env (foldUintEq l r)) (decide (a = b)) := by
  unfold foldUintEq
  split
  · rename_i h1 h2; rw [evalU_eq] at hl hr; rw [ev_uval h1 hl, ev_uval h2 hr]; exact .of_eq (by simp only [evalB])
  split
  · rename_i h; rw [hab (UExpr.eq_of_beq _ _ h)]; exact .of_eq (by simp [evalB])
  · simp only [evalB]; exact hl.bind (hr.bind (.ok _))
end

section
variable {S : Prop} {env : ZEnv p} {l r : BExpr (ZMod p)} {a b : Bool}

theorem ev_foldBoolEq (hl : Ev S (evalB env l) a) (hr : Ev S (evalB env r) b) (hab : l = r → a = b) :
    Ev S (evalB env (foldBoolEq l r)) (a == b) := by
  unfold foldBoolEq
  split
  · rename_i h1 h2; rw [ev_bval h1 hl, ev_bval h2 hr]; exact .of_eq (by simp only [evalB])
  split
  · rename_i h; rw [hab (BExpr.eq_of_beq _ _ h)]; exact .of_eq (by simp [evalB])
  · simp only [evalB]; exact hl.bind (hr.bind (.ok _))

theorem ev_foldBOr (hl : Ev S (evalB env l) a) (hr : Ev S (evalB env r) b) :
    Ev S (evalB env (foldBOr l r)) (a || b) := by
  unfold foldBOr
  split
  · rename_i h1 h2; rw [ev_bval h1 hl, ev_bval h2 hr]; exact .of_eq (by simp only [evalB])
  split
  · rename_i h
    have : (a || b) = true := by
      rcases h with h | h
      · rw [ev_bval h hr]; simp
      · rw [ev_bval h hl]; simp
    rw [this]; exact .of_eq (by simp only [evalB])
  split
  · rename_i h; rw [ev_bval h hr, Bool.or_false]; exact hl
  split
  · rename_i h; rw [ev_bval h hl, Bool.false_or]; exact hr
  · simp only [evalB]; exact hl.bind (hr.bind (.ok _))

theorem ev_foldBAnd (hl : Ev S (evalB env l) a) (hr : Ev S (evalB env r) b) :
    Ev S (evalB env (foldBAnd l r)) (a && b) := by
  unfold foldBAnd
  split
  · rename_i h; rw [ev_bval h hl, Bool.true_and]; exact hr
  split
  · rename_i h; rw [ev_bval h hr, Bool.and_true]; exact hl
  split
  · rename_i h
    have : (a && b) = false := by
      rcases h with h | h
      · rw [ev_bval h hl]; simp
      · rw [ev_bval h hr]; simp
    rw [this]; exact .of_eq (by simp only [evalB])
  · simp only [evalB]; exact hl.bind (hr.bind (.ok _))

theorem ev_foldNot (hl : Ev S (evalB env l) a) : Ev S (evalB env (foldNot l)) (!a) := by
  unfold foldNot
  split
  · rename_i h; rw [ev_bval h hl]; exact .of_eq (by simp only [evalB])
  · simp only [evalB]; exact hl.bind (.ok _)
end

/-! ### Unsigned integers -/
section
variable {S : Prop} {env : ZEnv p} {w : ℕ} {l r : UInner (ZMod p)} {a b : ℕ}

theorem ev_foldUAdd (hl : Ev S (evalUI env w l) a) (hr : Ev S (evalUI env w r) b) (ha : a < 2 ^ w) (hb : b < 2 ^ w) :
    Ev S (evalUI env w (foldUAdd w l r)) ((a + b) % 2 ^ w) := by
  unfold foldUAdd
  split
  · rename_i h; rw [ev_uval h hl, zero_add, Nat.mod_eq_of_lt hb]; exact hr
  split
  · rename_i h; rw [ev_uval h hr, add_zero, Nat.mod_eq_of_lt ha]; exact hl
  split
  · rename_i h1 h2; rw [ev_uval h1 hl, ev_uval h2 hr]; exact .of_eq (by simp only [evalUI])
  · simp only [evalUI, evalU]; exact hl.bind (hr.bind (.ok _))

theorem wrapping_sub_eq (a b : ℕ) (hw : w ≤ 64) (ha : a < 2 ^ w) (hb : b < 2 ^ w) :
    (a + 2 ^ 128 - b) % 2 ^ 128 % 2 ^ w = (a + (2 ^ w - b)) % 2 ^ w := by
  have hd : 2 ^ w ∣ 2 ^ 128 := pow_dvd_pow 2 (by omega)
  rw [Nat.mod_mod_of_dvd _ hd]
  obtain ⟨q, hq⟩ := hd
  have hle : 2 ^ w ≤ 2 ^ 128 := Nat.pow_le_pow_right (by omega) (by omega)
  have hq1 : 1 ≤ q := by
    rcases Nat.eq_zero_or_pos q with h | h
    · subst h; simp at hq
    · exact h
  have e : a + 2 ^ 128 - b = a + (2 ^ w - b) + 2 ^ w * (q - 1) := by
    have : 2 ^ 128 = 2 ^ w + 2 ^ w * (q - 1) := by
      rw [hq]; obtain ⟨k, rfl⟩ := Nat.exists_eq_add_of_le hq1; simp [mul_add]
    rw [this]
    generalize 2 ^ w * (q - 1) = y
    omega
  rw [e, Nat.add_mul_mod_self_left]

theorem ev_foldUSub (hl : Ev S (evalUI env w l) a) (hr : Ev S (evalUI env w r) b) (hw : w ≤ 64) (ha : a < 2 ^ w)
    (hb : b < 2 ^ w) : Ev S (evalUI env w (foldUSub w l r)) ((a + (2 ^ w - b)) % 2 ^ w) := by
  unfold foldUSub
  split
  · rename_i h; rw [ev_uval h hr, Nat.sub_zero, Nat.add_mod_right, Nat.mod_eq_of_lt ha]; exact hl
  split
  · rename_i h1 h2
    rw [ev_uval h1 hl] at *; rw [ev_uval h2 hr] at *
    rw [← wrapping_sub_eq _ _ hw ha hb]
    exact .of_eq (by simp only [evalUI])
  · simp only [evalUI, evalU]; exact hl.bind (hr.bind (.ok _))

theorem ev_foldUMult (hl : Ev S (evalUI env w l) a) (hr : Ev S (evalUI env w r) b) (ha : a < 2 ^ w) (hb : b < 2 ^ w) :
    Ev S (evalUI env w (foldUMult w l r)) ((a * b) % 2 ^ w) := by
  unfold foldUMult
  split
  · rename_i h
    have : a * b = 0 := by
      rcases h with h | h
      · rw [ev_uval h hr, mul_zero]
      · rw [ev_uval h hl, zero_mul]
    rw [this]; exact .of_eq (by simp [evalUI])
  split
  · rename_i h; rw [ev_uval h hr, mul_one, Nat.mod_eq_of_lt ha]; exact hl
  split
  · rename_i h; rw [ev_uval h hl, one_mul, Nat.mod_eq_of_lt hb]; exact hr
  split
  · rename_i h1 h2; rw [ev_uval h1 hl, ev_uval h2 hr]; exact .of_eq (by simp only [evalUI])
  · simp only [evalUI, evalU]; exact hl.bind (hr.bind (.ok _))

theorem ev_foldUDiv (hl : Ev S (evalUI env w l) a) (hr : Ev S (evalUI env w r) b) (ha : a < 2 ^ w) (hb : b ≠ 0) :
    ∃ e, foldUDiv w l r = .ok e ∧ Ev S (evalUI env w e) (a / b) := by
  unfold foldUDiv
  split
  · rename_i h; exact absurd (ev_uval h hr) hb
  split
  · rename_i h; refine ⟨_, rfl, ?_⟩; rw [ev_uval h hr, Nat.div_one]; exact hl
  split
  · rename_i h1 h2; refine ⟨_, rfl, ?_⟩
    rw [ev_uval h1 hl] at *; rw [ev_uval h2 hr] at *
    rw [Nat.mod_eq_of_lt (lt_of_le_of_lt (Nat.div_le_self _ _) ha)]
    exact .of_eq (by simp only [evalUI])
  · refine ⟨_, rfl, ?_⟩; simp only [evalUI, evalU]; refine hl.bind (hr.bind ?_); rw [if_neg hb]; exact .ok _

theorem ev_foldURem (hl : Ev S (evalUI env w l) a) (hr : Ev S (evalUI env w r) b) (ha : a < 2 ^ w) (hb : b ≠ 0) :
    ∃ e, foldURem w l r = .ok e ∧ Ev S (evalUI env w e) (a % b) := by
  unfold foldURem
  split
  · rename_i h1 h2
    rw [ev_uval h1 hl] at *; rw [ev_uval h2 hr] at *
    rw [if_neg hb]
    refine ⟨_, rfl, ?_⟩
    rw [Nat.mod_eq_of_lt (lt_of_le_of_lt (Nat.mod_le _ _) ha)]
    exact .of_eq (by simp only [evalUI])
  · refine ⟨_, rfl, ?_⟩; simp only [evalUI, evalU]; refine hl.bind (hr.bind ?_); rw [if_neg hb]; exact .ok _

theorem ev_foldUXor (hl : Ev S (evalUI env w l) a) (hr : Ev S (evalUI env w r) b) (hab : l = r → a = b) :
    Ev S (evalUI env w (foldUXor w l r)) (a ^^^ b) := by
  unfold foldUXor
  split
  · rename_i h1 h2; rw [ev_uval h1 hl, ev_uval h2 hr]; exact .of_eq (by simp only [evalUI])
  split
  · rename_i h; rw [hab (UInner.eq_of_beq _ _ h)]; exact .of_eq (by simp [evalUI])
  · simp only [evalUI, evalU]; exact hl.bind (hr.bind (.ok _))

theorem and_ones (ha : a < 2 ^ w) : a &&& (2 ^ w - 1) = a := by
  rw [Nat.and_two_pow_sub_one_eq_mod, Nat.mod_eq_of_lt ha]

theorem or_ones (ha : a < 2 ^ w) : a ||| (2 ^ w - 1) = 2 ^ w - 1 := by
  apply Nat.eq_of_testBit_eq
  intro i
  rw [Nat.testBit_or, Nat.testBit_two_pow_sub_one]
  by_cases hi : i < w
  · simp [hi]
  · have : a < 2 ^ i := lt_of_lt_of_le ha (Nat.pow_le_pow_right (by omega) (by omega))
    simp [Nat.testBit_lt_two_pow this, hi]

theorem ev_foldUAnd (hl : Ev S (evalUI env w l) a) (hr : Ev S (evalUI env w r) b) (ha : a < 2 ^ w) (hb : b < 2 ^ w) :
    Ev S (evalUI env w (foldUAnd w l r)) (a &&& b) := by
  unfold foldUAnd
  split
  · rename_i h; rw [ev_uval h hr, and_ones ha]; exact hl
  split
  · rename_i h; rw [ev_uval h hl, Nat.and_comm, and_ones hb]; exact hr
  split
  · rename_i h
    have : a &&& b = 0 := by
      rcases h with h | h
      · rw [ev_uval h hr, Nat.and_zero]
      · rw [ev_uval h hl, Nat.zero_and]
    rw [this]; exact .of_eq (by simp [evalUI])
  split
  · rename_i h1 h2; rw [ev_uval h1 hl, ev_uval h2 hr]; exact .of_eq (by simp only [evalUI])
  · simp only [evalUI, evalU]; exact hl.bind (hr.bind (.ok _))

theorem ev_foldUOr (hl : Ev S (evalUI env w l) a) (hr : Ev S (evalUI env w r) b) (ha : a < 2 ^ w) (hb : b < 2 ^ w) :
    Ev S (evalUI env w (foldUOr w l r)) (a ||| b) := by
  unfold foldUOr
  split
  · rename_i h; rw [ev_uval h hr, Nat.or_zero]; exact hl
  split
  · rename_i h; rw [ev_uval h hl, Nat.zero_or]; exact hr
  split
  · rename_i h
    have : a ||| b = 2 ^ w - 1 := by
      rcases h with h | h
      · rw [ev_uval h hr, or_ones ha]
      · rw [ev_uval h hl, Nat.or_comm, or_ones hb]
    rw [this]; exact .of_eq (by simp [evalUI])
  split
  · rename_i h1 h2; rw [ev_uval h1 hl, ev_uval h2 hr]; exact .of_eq (by simp only [evalUI])
  · simp only [evalUI, evalU]; exact hl.bind (hr.bind (.ok _))

theorem ev_foldULeftShift (hl : Ev S (evalUI env w l) a) (hr : Ev S (evalUI env 32 r) b) (ha : a < 2 ^ w)
    (hb : b < 2 ^ 32) : Ev S (evalUI env w (foldULeftShift w l r)) ((a * 2 ^ b) % 2 ^ w) := by
  unfold foldULeftShift
  split
  · simp only [evalUI, evalU]; exact hl.bind (hr.bind (.ok _))
  · rename_i k h
    rw [← ev_uval h hr]
    split
    · rename_i h0; rw [h0, pow_zero, mul_one, Nat.mod_eq_of_lt ha]; exact hl
    split
    · rename_i h1
      rw [Nat.mod_eq_of_lt hb] at h1
      have : a * 2 ^ b % 2 ^ w = 0 := Nat.mod_eq_zero_of_dvd (Dvd.dvd.mul_left (pow_dvd_pow 2 h1) a)
      rw [this]; exact .of_eq (by simp [evalUI])
    split
    · rename_i h1; rw [ev_uval h1 hl, Nat.and_two_pow_sub_one_eq_mod, Nat.shiftLeft_eq]; exact .of_eq (by simp only [evalUI])
    · simp only [evalUI, evalU]; exact hl.bind (hr.bind (.ok _))

theorem ev_foldURightShift (hl : Ev S (evalUI env w l) a) (hr : Ev S (evalUI env 32 r) b) (ha : a < 2 ^ w)
    (hb : b < 2 ^ 32) : Ev S (evalUI env w (foldURightShift w l r)) (a / 2 ^ b) := by
  unfold foldURightShift
  split
  · simp only [evalUI, evalU]; exact hl.bind (hr.bind (.ok _))
  · rename_i k h
    rw [← ev_uval h hr]
    split
    · rename_i h0; rw [h0, pow_zero, Nat.div_one]; exact hl
    split
    · rename_i h1
      rw [Nat.mod_eq_of_lt hb] at h1
      have : a / 2 ^ b = 0 := Nat.div_eq_of_lt (lt_of_lt_of_le ha (Nat.pow_le_pow_right (by omega) h1))
      rw [this]; exact .of_eq (by simp [evalUI])
    split
    · rename_i h1; rw [ev_uval h1 hl, Nat.shiftRight_eq_div_pow]; exact .of_eq (by simp only [evalUI])
    · simp only [evalUI, evalU]; exact hl.bind (hr.bind (.ok _))

theorem ev_foldUNot (hl : Ev S (evalUI env w l) a) (hw : w ≤ 64) (ha : a < 2 ^ w) :
    Ev S (evalUI env w (foldUNot w l)) (2 ^ w - 1 - a) := by
  unfold foldUNot
  split
  · rename_i h
    rw [ev_uval h hl] at *
    rename_i n
    have : (2 ^ 128 - 1 - n) &&& (2 ^ w - 1) = 2 ^ w - 1 - n := by
      rw [Nat.and_two_pow_sub_one_eq_mod]
      obtain ⟨q, hq⟩ : 2 ^ w ∣ 2 ^ 128 := pow_dvd_pow 2 (by omega)
      have hq1 : 1 ≤ q := by
        rcases Nat.eq_zero_or_pos q with h | h
        · subst h; simp at hq
        · exact h
      have e : 2 ^ 128 - 1 - n = (2 ^ w - 1 - n) + 2 ^ w * (q - 1) := by
        have : 2 ^ 128 = 2 ^ w + 2 ^ w * (q - 1) := by
          rw [hq]; obtain ⟨k, rfl⟩ := Nat.exists_eq_add_of_le hq1; simp [mul_add]
        rw [this]
        generalize 2 ^ w * (q - 1) = y
        omega
      rw [e, Nat.add_mul_mod_self_left, Nat.mod_eq_of_lt]
      have : 0 < 2 ^ w := by positivity
      omega
    rw [← this]; exact .of_eq (by simp only [evalUI])
  · simp only [evalUI, evalU]; exact hl.bind (.ok _)
end

end Zok.Prop'
