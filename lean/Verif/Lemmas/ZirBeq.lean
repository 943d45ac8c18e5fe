import Verif.Model.Zir

/-
The derived equality of ZIR expressions is equality.
-/

namespace Zok
variable {F : Type} [DecidableEq F]

set_option linter.unusedSimpArgs false
set_option maxHeartbeats 4000000

mutual
theorem FExpr.eq_of_beq : ∀ (a b : FExpr F) (h : a.beq b = true), a = b
  | .value x, b, h => by
    cases b <;> simp only [FExpr.beq, decide_eq_true_eq, Bool.false_eq_true] at h
    rw [h]
  | .ident x, b, h => by
    cases b <;> simp only [FExpr.beq, decide_eq_true_eq, Bool.false_eq_true] at h
    rw [h]
  | .select x y, b, h => by
    cases b <;> simp only [FExpr.beq, Bool.and_eq_true, Bool.false_eq_true] at h
    rw [FExpr.eq_of_beqL x _ h.1, UExpr.eq_of_beq y _ h.2]
  | .add x y, b, h => by
    cases b <;> simp only [FExpr.beq, Bool.and_eq_true, Bool.false_eq_true] at h
    rw [FExpr.eq_of_beq x _ h.1, FExpr.eq_of_beq y _ h.2]
  | .sub x y, b, h => by
    cases b <;> simp only [FExpr.beq, Bool.and_eq_true, Bool.false_eq_true] at h
    rw [FExpr.eq_of_beq x _ h.1, FExpr.eq_of_beq y _ h.2]
  | .mult x y, b, h => by
    cases b <;> simp only [FExpr.beq, Bool.and_eq_true, Bool.false_eq_true] at h
    rw [FExpr.eq_of_beq x _ h.1, FExpr.eq_of_beq y _ h.2]
  | .div x y, b, h => by
    cases b <;> simp only [FExpr.beq, Bool.and_eq_true, Bool.false_eq_true] at h
    rw [FExpr.eq_of_beq x _ h.1, FExpr.eq_of_beq y _ h.2]
  | .pow x y, b, h => by
    cases b <;> simp only [FExpr.beq, Bool.and_eq_true, Bool.false_eq_true] at h
    rw [FExpr.eq_of_beq x _ h.1, UExpr.eq_of_beq y _ h.2]
  | .and x y, b, h => by
    cases b <;> simp only [FExpr.beq, Bool.and_eq_true, Bool.false_eq_true] at h
    rw [FExpr.eq_of_beq x _ h.1, FExpr.eq_of_beq y _ h.2]
  | .or x y, b, h => by
    cases b <;> simp only [FExpr.beq, Bool.and_eq_true, Bool.false_eq_true] at h
    rw [FExpr.eq_of_beq x _ h.1, FExpr.eq_of_beq y _ h.2]
  | .xor x y, b, h => by
    cases b <;> simp only [FExpr.beq, Bool.and_eq_true, Bool.false_eq_true] at h
    rw [FExpr.eq_of_beq x _ h.1, FExpr.eq_of_beq y _ h.2]
  | .leftShift x y, b, h => by
    cases b <;> simp only [FExpr.beq, Bool.and_eq_true, Bool.false_eq_true] at h
    rw [FExpr.eq_of_beq x _ h.1, UExpr.eq_of_beq y _ h.2]
  | .rightShift x y, b, h => by
    cases b <;> simp only [FExpr.beq, Bool.and_eq_true, Bool.false_eq_true] at h
    rw [FExpr.eq_of_beq x _ h.1, UExpr.eq_of_beq y _ h.2]
  | .cond x y z, b, h => by
    cases b <;> simp only [FExpr.beq, Bool.and_eq_true, Bool.false_eq_true] at h
    rw [BExpr.eq_of_beq x _ h.1, FExpr.eq_of_beq y _ h.2.1, FExpr.eq_of_beq z _ h.2.2]
theorem FExpr.eq_of_beqL : ∀ (a b : List (FExpr F)) (h : FExpr.beqL a b = true), a = b
  | [], b, h => by
    cases b <;> simp only [FExpr.beqL, Bool.false_eq_true] at h
    rfl
  | x :: y, b, h => by
    cases b <;> simp only [FExpr.beqL, Bool.and_eq_true, Bool.false_eq_true] at h
    rw [FExpr.eq_of_beq x _ h.1, FExpr.eq_of_beqL y _ h.2]
theorem BExpr.eq_of_beq : ∀ (a b : BExpr F) (h : a.beq b = true), a = b
  | .value x, b, h => by
    cases b <;> simp only [BExpr.beq, decide_eq_true_eq, Bool.false_eq_true] at h
    rw [h]
  | .ident x, b, h => by
    cases b <;> simp only [BExpr.beq, decide_eq_true_eq, Bool.false_eq_true] at h
    rw [h]
  | .select x y, b, h => by
    cases b <;> simp only [BExpr.beq, Bool.and_eq_true, Bool.false_eq_true] at h
    rw [BExpr.eq_of_beqL x _ h.1, UExpr.eq_of_beq y _ h.2]
  | .fieldLt x y, b, h => by
    cases b <;> simp only [BExpr.beq, Bool.and_eq_true, Bool.false_eq_true] at h
    rw [FExpr.eq_of_beq x _ h.1, FExpr.eq_of_beq y _ h.2]
  | .fieldLe x y, b, h => by
    cases b <;> simp only [BExpr.beq, Bool.and_eq_true, Bool.false_eq_true] at h
    rw [FExpr.eq_of_beq x _ h.1, FExpr.eq_of_beq y _ h.2]
  | .fieldEq x y, b, h => by
    cases b <;> simp only [BExpr.beq, Bool.and_eq_true, Bool.false_eq_true] at h
    rw [FExpr.eq_of_beq x _ h.1, FExpr.eq_of_beq y _ h.2]
  | .uintLt x y, b, h => by
    cases b <;> simp only [BExpr.beq, Bool.and_eq_true, Bool.false_eq_true] at h
    rw [UExpr.eq_of_beq x _ h.1, UExpr.eq_of_beq y _ h.2]
  | .uintLe x y, b, h => by
    cases b <;> simp only [BExpr.beq, Bool.and_eq_true, Bool.false_eq_true] at h
    rw [UExpr.eq_of_beq x _ h.1, UExpr.eq_of_beq y _ h.2]
  | .uintEq x y, b, h => by
    cases b <;> simp only [BExpr.beq, Bool.and_eq_true, Bool.false_eq_true] at h
    rw [UExpr.eq_of_beq x _ h.1, UExpr.eq_of_beq y _ h.2]
  | .boolEq x y, b, h => by
    cases b <;> simp only [BExpr.beq, Bool.and_eq_true, Bool.false_eq_true] at h
    rw [BExpr.eq_of_beq x _ h.1, BExpr.eq_of_beq y _ h.2]
  | .or x y, b, h => by
    cases b <;> simp only [BExpr.beq, Bool.and_eq_true, Bool.false_eq_true] at h
    rw [BExpr.eq_of_beq x _ h.1, BExpr.eq_of_beq y _ h.2]
  | .and x y, b, h => by
    cases b <;> simp only [BExpr.beq, Bool.and_eq_true, Bool.false_eq_true] at h
    rw [BExpr.eq_of_beq x _ h.1, BExpr.eq_of_beq y _ h.2]
  | .not x, b, h => by
    cases b <;> simp only [BExpr.beq, Bool.and_eq_true, Bool.false_eq_true] at h
    rw [BExpr.eq_of_beq x _ h]
  | .cond x y z, b, h => by
    cases b <;> simp only [BExpr.beq, Bool.and_eq_true, Bool.false_eq_true] at h
    rw [BExpr.eq_of_beq x _ h.1, BExpr.eq_of_beq y _ h.2.1, BExpr.eq_of_beq z _ h.2.2]
theorem BExpr.eq_of_beqL : ∀ (a b : List (BExpr F)) (h : BExpr.beqL a b = true), a = b
  | [], b, h => by
    cases b <;> simp only [BExpr.beqL, Bool.false_eq_true] at h
    rfl
  | x :: y, b, h => by
    cases b <;> simp only [BExpr.beqL, Bool.and_eq_true, Bool.false_eq_true] at h
    rw [BExpr.eq_of_beq x _ h.1, BExpr.eq_of_beqL y _ h.2]
theorem UExpr.eq_of_beq : ∀ (a b : UExpr F) (h : a.beq b = true), a = b
  | .mk w m i, .mk w' m' i', h => by
    simp only [UExpr.beq, Bool.and_eq_true, decide_eq_true_eq] at h
    rw [h.1, h.2.1, UInner.eq_of_beq i _ h.2.2]
theorem UExpr.eq_of_beqL : ∀ (a b : List (UExpr F)) (h : UExpr.beqL a b = true), a = b
  | [], b, h => by
    cases b <;> simp only [UExpr.beqL, Bool.false_eq_true] at h
    rfl
  | x :: y, b, h => by
    cases b <;> simp only [UExpr.beqL, Bool.and_eq_true, Bool.false_eq_true] at h
    rw [UExpr.eq_of_beq x _ h.1, UExpr.eq_of_beqL y _ h.2]
theorem UInner.eq_of_beq : ∀ (a b : UInner F) (h : a.beq b = true), a = b
  | .value x, b, h => by
    cases b <;> simp only [UInner.beq, decide_eq_true_eq, Bool.false_eq_true] at h
    rw [h]
  | .ident x, b, h => by
    cases b <;> simp only [UInner.beq, decide_eq_true_eq, Bool.false_eq_true] at h
    rw [h]
  | .select x y, b, h => by
    cases b <;> simp only [UInner.beq, Bool.and_eq_true, Bool.false_eq_true] at h
    rw [UExpr.eq_of_beqL x _ h.1, UExpr.eq_of_beq y _ h.2]
  | .add x y, b, h => by
    cases b <;> simp only [UInner.beq, Bool.and_eq_true, Bool.false_eq_true] at h
    rw [UExpr.eq_of_beq x _ h.1, UExpr.eq_of_beq y _ h.2]
  | .sub x y, b, h => by
    cases b <;> simp only [UInner.beq, Bool.and_eq_true, Bool.false_eq_true] at h
    rw [UExpr.eq_of_beq x _ h.1, UExpr.eq_of_beq y _ h.2]
  | .mult x y, b, h => by
    cases b <;> simp only [UInner.beq, Bool.and_eq_true, Bool.false_eq_true] at h
    rw [UExpr.eq_of_beq x _ h.1, UExpr.eq_of_beq y _ h.2]
  | .div x y, b, h => by
    cases b <;> simp only [UInner.beq, Bool.and_eq_true, Bool.false_eq_true] at h
    rw [UExpr.eq_of_beq x _ h.1, UExpr.eq_of_beq y _ h.2]
  | .rem x y, b, h => by
    cases b <;> simp only [UInner.beq, Bool.and_eq_true, Bool.false_eq_true] at h
    rw [UExpr.eq_of_beq x _ h.1, UExpr.eq_of_beq y _ h.2]
  | .xor x y, b, h => by
    cases b <;> simp only [UInner.beq, Bool.and_eq_true, Bool.false_eq_true] at h
    rw [UExpr.eq_of_beq x _ h.1, UExpr.eq_of_beq y _ h.2]
  | .and x y, b, h => by
    cases b <;> simp only [UInner.beq, Bool.and_eq_true, Bool.false_eq_true] at h
    rw [UExpr.eq_of_beq x _ h.1, UExpr.eq_of_beq y _ h.2]
  | .or x y, b, h => by
    cases b <;> simp only [UInner.beq, Bool.and_eq_true, Bool.false_eq_true] at h
    rw [UExpr.eq_of_beq x _ h.1, UExpr.eq_of_beq y _ h.2]
  | .leftShift x y, b, h => by
    cases b <;> simp only [UInner.beq, Bool.and_eq_true, Bool.false_eq_true] at h
    rw [UExpr.eq_of_beq x _ h.1, UExpr.eq_of_beq y _ h.2]
  | .rightShift x y, b, h => by
    cases b <;> simp only [UInner.beq, Bool.and_eq_true, Bool.false_eq_true] at h
    rw [UExpr.eq_of_beq x _ h.1, UExpr.eq_of_beq y _ h.2]
  | .not x, b, h => by
    cases b <;> simp only [UInner.beq, Bool.and_eq_true, Bool.false_eq_true] at h
    rw [UExpr.eq_of_beq x _ h]
  | .cond x y z, b, h => by
    cases b <;> simp only [UInner.beq, Bool.and_eq_true, Bool.false_eq_true] at h
    rw [BExpr.eq_of_beq x _ h.1, UExpr.eq_of_beq y _ h.2.1, UExpr.eq_of_beq z _ h.2.2]
end

end Zok
