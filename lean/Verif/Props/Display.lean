import Verif.Model.Display
import Verif.Lemmas.Field

/-
C40: names of variables (`zokrates_ast/src/common/flat/variable.rs`).
-/

namespace Zok

private theorem disp_inj (v w : ℤ) (h : Variable.display v = Variable.display w) : v = w := by
  have key : ∀ v : ℤ, Variable.display v = if v = 0 then "~one".toList
    else if v > 0 then '_' :: Fld.decString (v - 1).toNat
    else "~out_".toList ++ Fld.decString (-(v + 1)).toNat := fun _ => rfl
  rw [key, key] at h
  have e1 : "~one".toList = ['~', 'o', 'n', 'e'] := by decide
  have e2 : "~out_".toList = ['~', 'o', 'u', 't', '_'] := by decide
  rw [e1, e2] at h
  rcases lt_trichotomy v 0 with hv | hv | hv <;> rcases lt_trichotomy w 0 with hw | hw | hw
  · rw [if_neg (by omega), if_neg (by omega), if_neg (by omega), if_neg (by omega)] at h
    have h := Fld.decString_inj (List.append_cancel_left h)
    omega
  · rw [if_neg (by omega), if_neg (by omega), if_pos (by omega)] at h
    simp at h
  · rw [if_neg (by omega), if_neg (by omega), if_neg (by omega), if_pos (by omega)] at h
    simp at h
  · rw [if_pos (by omega), if_neg (by omega), if_neg (by omega)] at h
    simp at h
  · omega
  · rw [if_pos (by omega), if_neg (by omega), if_pos (by omega)] at h
    simp at h
  · rw [if_neg (by omega), if_pos (by omega), if_neg (by omega), if_neg (by omega)] at h
    simp at h
  · rw [if_neg (by omega), if_pos (by omega), if_pos (by omega)] at h
    simp at h
  · rw [if_neg (by omega), if_pos (by omega), if_neg (by omega), if_pos (by omega)] at h
    have h := Fld.decString_inj (List.cons.inj h).2
    omega

/-- **C40**. Distinct variables are displayed differently. -/
theorem C40_display_injective (v w : Variable) (h : v.display = w.display) : v = w := disp_inj v w h

/-- **C40**. The three constructors of variables never collide: `~one`, the `n`-th intermediate variable and the `n`-th
output are pairwise distinct, and each constructor is injective. -/
theorem C40_constructors_disjoint (m n : ℕ) :
    Variable.new m ≠ Variable.one ∧ Variable.pub m ≠ Variable.one ∧ Variable.new m ≠ Variable.pub n ∧
    (Variable.new m = Variable.new n → m = n) ∧ (Variable.pub m = Variable.pub n → m = n) ∧
    (Variable.pub m).isOutput = true ∧ (Variable.new m).isOutput = false ∧ Variable.one.isOutput = false := by
  have h1 : (1 + (m : ℤ)) ≠ 0 := by omega
  have h2 : (-(m : ℤ) - 1) ≠ 0 := by omega
  have h3 : (1 + (m : ℤ)) ≠ -(n : ℤ) - 1 := by omega
  have h4 : (1 + (m : ℤ)) = 1 + (n : ℤ) → m = n := by omega
  have h5 : (-(m : ℤ) - 1) = -(n : ℤ) - 1 → m = n := by omega
  have h6 : (-(m : ℤ) - 1) < 0 := by omega
  have h7 : ¬ (1 + (m : ℤ)) < 0 := by omega
  exact ⟨h1, h2, h3, h4, h5, decide_eq_true h6, decide_eq_false h7, by decide⟩

example : (Variable.new 42).display = "_42".toList ∧ (Variable.pub 0).display = "~out_0".toList ∧
    Variable.one.display = "~one".toList := by
  refine ⟨?_, ?_, ?_⟩ <;> decide +kernel

end Zok
