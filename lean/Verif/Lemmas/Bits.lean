import Verif.Spec.Bits
import Mathlib.Data.Nat.Size
import Mathlib.Data.Nat.Cast.Basic
import Mathlib.Algebra.Field.ZMod
import Mathlib.Tactic.Ring
import Mathlib.Tactic.Push
import Mathlib.Data.Nat.Bitwise

set_option linter.unusedSectionVars false

namespace Zok

@[simp] theorem length_bitsBE (w x : ℕ) : (bitsBE w x).length = w := by
  induction w with
  | zero => rfl
  | succ w ih => simp [bitsBE, ih]

theorem natBE_lt (bs : List Bool) : natBE bs < 2 ^ bs.length := by
  induction bs with
  | nil => simp [natBE]
  | cons b bs ih =>
    simp only [natBE, List.length_cons, pow_succ]
    cases b <;> simp <;> omega

theorem natBE_bitsBE (w x : ℕ) : natBE (bitsBE w x) = x % 2 ^ w := by
  induction w with
  | zero => simp [bitsBE, natBE, Nat.mod_one]
  | succ w ih =>
    simp only [bitsBE, natBE, length_bitsBE, ih]
    have := Nat.testBit_eq_decide_div_mod_eq (x := x) (i := w)
    rw [Nat.pow_succ, Nat.mod_mul, this]
    have h2 : x / 2 ^ w % 2 < 2 := Nat.mod_lt _ (by norm_num)
    rcases (by omega : x / 2 ^ w % 2 = 0 ∨ x / 2 ^ w % 2 = 1) with h | h
    · simp [h]
    · simp [h]; ring

theorem natBE_bitsBE_of_lt {w x : ℕ} (h : x < 2 ^ w) : natBE (bitsBE w x) = x := by
  rw [natBE_bitsBE, Nat.mod_eq_of_lt h]

theorem natBE_inj {a b : List Bool} (hl : a.length = b.length) (h : natBE a = natBE b) : a = b := by
  induction a generalizing b with
  | nil => cases b with
    | nil => rfl
    | cons _ _ => simp at hl
  | cons x a ih => cases b with
    | nil => simp at hl
    | cons y b =>
      simp only [List.length_cons, Nat.add_right_cancel_iff] at hl
      simp only [natBE, hl] at h
      have h1 := natBE_lt a
      have h2 := natBE_lt b
      rw [hl] at h1
      have hxy : x = y := by
        cases x <;> cases y <;> simp at h ⊢ <;> omega
      subst hxy
      rw [ih hl (by omega)]

theorem bitsBE_natBE (bs : List Bool) : bitsBE bs.length (natBE bs) = bs :=
  natBE_inj (by simp) (natBE_bitsBE_of_lt (natBE_lt bs))

theorem drop_bitsBE (w k x : ℕ) : (bitsBE w x).drop k = bitsBE (w - k) x := by
  induction w generalizing k with
  | zero => simp [bitsBE]
  | succ w ih =>
    cases k with
    | zero => simp
    | succ k => simp only [bitsBE, List.drop_succ_cons, ih, Nat.add_sub_add_right]

theorem bitsBE_mod (w x : ℕ) : bitsBE w (x % 2 ^ w) = bitsBE w x :=
  natBE_inj (by simp) (by rw [natBE_bitsBE, natBE_bitsBE, Nat.mod_mod])

theorem natBE_append (a b : List Bool) : natBE (a ++ b) = natBE a * 2 ^ b.length + natBE b := by
  induction a with
  | nil => simp [natBE]
  | cons x a ih => simp only [List.cons_append, natBE, ih, List.length_append, pow_add]; ring

theorem natBE_replicate_false (n : ℕ) : natBE (List.replicate n false) = 0 := by
  induction n with
  | zero => rfl
  | succ n ih => simp [List.replicate_succ, natBE, ih]

theorem bitsBE_pad {w w' x : ℕ} (hx : x < 2 ^ w') (hw : w' ≤ w) :
    bitsBE w x = List.replicate (w - w') false ++ bitsBE w' x := by
  apply natBE_inj
  · simp; omega
  · rw [natBE_append, natBE_replicate_false, natBE_bitsBE, natBE_bitsBE, Nat.mod_eq_of_lt hx,
      Nat.mod_eq_of_lt (lt_of_lt_of_le hx (Nat.pow_le_pow_right (by norm_num) hw))]
    simp

section ring
variable {R : Type _} [CommRing R]

theorem sumBE_map_boolF (bs : List Bool) : sumBE (bs.map (boolF (R := R))) = ((natBE bs : ℕ) : R) := by
  induction bs with
  | nil => simp [sumBE, natBE]
  | cons b bs ih =>
    simp only [List.map_cons, sumBE, natBE, ih, List.length_map]
    cases b <;> simp [boolF]

theorem boolF_eq (b : Bool) : (boolF b : R) = 0 ∨ (boolF b : R) = 1 := by cases b <;> simp [boolF]

theorem boolF_mul_self (b : Bool) : (boolF b : R) * boolF b = boolF b := by cases b <;> simp [boolF]

theorem boolF_inj [Nontrivial R] {a b : Bool} (h : (boolF a : R) = boolF b) : a = b := by
  cases a <;> cases b <;> simp_all [boolF]

theorem map_boolF_inj [Nontrivial R] {a b : List Bool} (h : a.map (boolF (R := R)) = b.map boolF) : a = b :=
  (List.map_injective_iff.2 fun _ _ => boolF_inj) h

/-- A vector of elements that are all 0 or 1 is a vector of booleans. -/
theorem exists_bools {l : List R} (h : ∀ b ∈ l, b = 0 ∨ b = 1) : ∃ bs : List Bool, l = bs.map boolF := by
  induction l with
  | nil => exact ⟨[], rfl⟩
  | cons a l ih =>
    obtain ⟨bs, hbs⟩ := ih fun b hb => h b (List.mem_cons_of_mem _ hb)
    rcases h a (by simp) with rfl | rfl
    · exact ⟨false :: bs, by simp [hbs, boolF]⟩
    · exact ⟨true :: bs, by simp [hbs, boolF]⟩

end ring

theorem bool_of_mul_self {F : Type _} [Field F] {x : F} (h : x * x = x) : x = 0 ∨ x = 1 := by
  have : x * (x - 1) = 0 := by rw [mul_sub, h]; ring
  rcases mul_eq_zero.1 this with h | h
  · exact Or.inl h
  · exact Or.inr (sub_eq_zero.1 h)

end Zok
