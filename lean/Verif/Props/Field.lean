import Verif.Lemmas.Field
import Verif.Spec.TestField

/-
C37-C39: field elements (`zokrates_field/src/lib.rs`).
-/

namespace Zok
open Fld
variable {p : ℕ} [Fact p.Prime]

/-- **C37**. `to_bits_be` returns exactly `get_required_bits()` bits, which denote the canonical representative; hence it
is injective. -/
theorem C37_to_bits_be (x : ZMod p) :
    (toBitsBe x).length = requiredBits p ∧ natBE (toBitsBe x) = x.val ∧
    (∀ y : ZMod p, toBitsBe x = toBitsBe y → x = y) := by
  have hv : ∀ z : ZMod p, natBE (toBitsBe z) = z.val := fun z => by
    rw [toBitsBe_eq]; exact natBE_bitsBE_of_lt (lt_trans (val_lt z) lt_two_pow_required)
  refine ⟨by rw [toBitsBe_eq, length_bitsBE], hv x, ?_⟩
  intro y h
  apply ZMod.val_injective
  rw [← hv x, ← hv y, h]

/-- **C37**. `get_required_bits()` is the least width that holds every element. -/
theorem C37_required_bits : (∀ x : ZMod p, x.val < 2 ^ requiredBits p) ∧
    ∀ n, (∀ x : ZMod p, x.val ≤ 2 ^ n - 1) → requiredBits p ≤ n ∨ p = 2 ^ n := by
  refine ⟨fun x => lt_trans (val_lt x) lt_two_pow_required, ?_⟩
  intro n h
  have h1 := h (maxValue p)
  rw [val_maxValue] at h1
  have h2 : 1 ≤ 2 ^ n := Nat.one_le_two_pow
  have h3 := p_pos (p := p)
  by_cases hp : p = 2 ^ n
  · exact Or.inr hp
  · exact Or.inl (Nat.size_le.2 (by omega))

/-- **C37**. `bits()` is the least positive width holding the element. -/
theorem C37_bits (x : ZMod p) :
    1 ≤ bits x ∧ x.val < 2 ^ bits x ∧ ∀ n, 1 ≤ n → x.val < 2 ^ n → bits x ≤ n := by
  rw [bits_eq]
  refine ⟨le_max_right _ _, ?_, ?_⟩
  · exact lt_of_lt_of_le (Nat.lt_size_self _) (Nat.pow_le_pow_right (by norm_num) (le_max_left _ _))
  · intro n h1 h2
    exact max_le (Nat.size_le.2 h2) h1

/-- **C37**. Reading back the bytes of an element returns it; `to_byte_vector` is the little-endian representation. -/
theorem C37_bytes (x : ZMod p) :
    fromByteVector p (toByteVector x) = some x ∧ natLE (toByteVector x) = x.val ∧
    (toByteVector x).length = 8 * limbs p := by
  have hn : natLE (toByteVector x) = x.val := by
    unfold toByteVector
    rw [natLE_bytesLE, Nat.mod_eq_of_lt (lt_trans (val_lt x) p_lt_256)]
  have hl : (toByteVector x).length = 8 * limbs p := length_bytesLE _ _
  refine ⟨?_, hn, hl⟩
  unfold fromByteVector
  rw [if_neg (by omega), ← hl, List.take_length]
  simp only [hn, val_lt x, if_true, cast_val]

/-- **C37**. `TryFrom<BigUint>` succeeds exactly below the modulus and then returns the element the integer represents. -/
theorem C37_try_from_biguint (n : ℕ) :
    (n < p → ∃ x : ZMod p, tryFromBiguint p n = some x ∧ x.val = n) ∧ (p ≤ n → tryFromBiguint p n = none) := by
  rw [tryFromBiguint_eq]
  constructor
  · intro h; rw [if_pos h]; exact ⟨_, rfl, val_natCast_of_lt h⟩
  · intro h; rw [if_neg (by omega)]

/-- **C37**. Parsing the decimal string of an element returns it. -/
theorem C37_dec_string_roundtrip (x : ZMod p) : tryFromStr p (toDecString x) 10 = some x := by
  unfold tryFromStr toDecString
  rw [parseBytes_decString]
  simp only [tryFromBiguint_eq, val_lt x, if_true, cast_val]

/-- **C37**. `try_from_str` accepts exactly the numerals denoting an integer below the modulus. -/
theorem C37_try_from_str (s : List Char) (radix : ℕ) (x : ZMod p) :
    tryFromStr p s radix = some x ↔ parseBytes radix s = some x.val := by
  unfold tryFromStr
  split
  · rename_i h; simp [h]
  · rename_i n h
    rw [tryFromBiguint_eq, h]
    constructor
    · intro h1
      split at h1
      · rename_i hn
        simp only [Option.some.injEq] at h1
        rw [← h1, val_natCast_of_lt hn]
      · simp at h1
    · intro h1
      simp only [Option.some.injEq] at h1
      rw [h1, if_pos (val_lt x), cast_val]

/-- **C38**. For operands at most `max_unique_value`, `checked_add` succeeds exactly when the integer sum is at most
`max_unique_value = 2^(bits-1) - 1`, and then the result represents the integer sum; otherwise it never panics. -/
theorem C38_checked_add (x y : ZMod p) (hx : x.val ≤ 2 ^ (requiredBits p - 1) - 1)
    (hy : y.val ≤ 2 ^ (requiredBits p - 1) - 1) :
    (x.val + y.val ≤ 2 ^ (requiredBits p - 1) - 1 →
      ∃ r, checkedAdd x y = .some r ∧ r.val = x.val + y.val) ∧
    (2 ^ (requiredBits p - 1) - 1 < x.val + y.val → checkedAdd x y = .none) := by
  unfold checkedAdd
  simp only [val_maxUniqueValue, not_le, gt_iff_lt]
  rw [if_neg (by omega), if_neg (by omega)]
  constructor
  · intro h
    rw [if_neg (by omega)]
    refine ⟨_, rfl, ?_⟩
    apply ZMod.val_add_of_lt
    have := two_pow_le (p := p)
    have : 1 ≤ 2 ^ (requiredBits p - 1) := Nat.one_le_two_pow
    omega
  · intro h; rw [if_pos h]

/-- **C38**. The same for `checked_mul`. -/
theorem C38_checked_mul (x y : ZMod p) (hx : x.val ≤ 2 ^ (requiredBits p - 1) - 1)
    (hy : y.val ≤ 2 ^ (requiredBits p - 1) - 1) :
    (x.val * y.val ≤ 2 ^ (requiredBits p - 1) - 1 →
      ∃ r, checkedMul x y = .some r ∧ r.val = x.val * y.val) ∧
    (2 ^ (requiredBits p - 1) - 1 < x.val * y.val → checkedMul x y = .none) := by
  unfold checkedMul
  simp only [val_maxUniqueValue, not_le, gt_iff_lt]
  rw [if_neg (by omega), if_neg (by omega)]
  constructor
  · intro h
    rw [if_neg (by omega)]
    refine ⟨_, rfl, ?_⟩
    rw [ZMod.val_mul, Nat.mod_eq_of_lt]
    have := two_pow_le (p := p)
    have : 1 ≤ 2 ^ (requiredBits p - 1) := Nat.one_le_two_pow
    omega
  · intro h; rw [if_pos h]

/-- **C38**. Values at most `max_unique_value` have a unique decomposition on `bits - 1` bits: two bit vectors of that
length with the same weighted sum in the field are equal. -/
theorem C38_unique_decomposition (a b : List Bool) (ha : a.length = requiredBits p - 1)
    (hb : b.length = requiredBits p - 1)
    (h : sumBE (a.map (boolF (R := ZMod p))) = sumBE (b.map boolF)) : a = b := by
  rw [sumBE_map_boolF, sumBE_map_boolF] at h
  apply natBE_inj (by omega)
  have h1 := natBE_lt a
  have h2 := natBE_lt b
  rw [ha] at h1
  rw [hb] at h2
  have := two_pow_le (p := p)
  rw [← val_natCast_of_lt (p := p) (n := natBE a) (by omega),
    ← val_natCast_of_lt (p := p) (n := natBE b) (by omega), h]

/-- What a compact string denotes: a decimal numeral, or the negation of one between `(-` and `)`. -/
def CompactDenotes (s : List Char) (z : ℤ) : Prop :=
  (∃ n : ℕ, s = decString n ∧ z = n) ∨ (∃ n : ℕ, s = ['(', '-'] ++ decString n ++ [')'] ∧ z = -(n : ℤ))

/-- **C39**. The compact string of an element denotes an integer in `[-(p-1)/2, (p-1)/2]` congruent to it. -/
theorem C39_compact_denotes (x : ZMod p) (hp : p ≠ 2) :
    ∃ z : ℤ, CompactDenotes (toCompactDecString x) z ∧ (z : ZMod p) = x ∧ 2 * z.natAbs ≤ p - 1 := by
  unfold toCompactDecString
  split
  · rename_i h
    refine ⟨x.val, Or.inl ⟨x.val, rfl, rfl⟩, ?_, ?_⟩
    · rw [Int.cast_natCast, cast_val]
    · simp only [Int.natAbs_natCast]; omega
  · rename_i h
    have hx : maxValue p - x + 1 = -x := by unfold maxValue; ring
    have hv := val_lt x
    have hxv : (maxValue p - x + 1).val = p - x.val := by
      rw [hx, ZMod.neg_val, if_neg]
      rintro rfl
      simp at h
    refine ⟨-((p - x.val : ℕ) : ℤ), Or.inr ⟨p - x.val, by rw [toDecString, hxv], rfl⟩, ?_, ?_⟩
    · rw [Nat.cast_sub hv.le]; simp
    · have hodd : p % 2 = 1 := by
        rcases (Fact.out : p.Prime).eq_two_or_odd with h2 | h2
        · exact absurd h2 hp
        · exact h2
      simp only [Int.natAbs_neg, Int.natAbs_natCast]; omega

/-- **C39**. The compact string is injective. -/
theorem C39_compact_injective (x y : ZMod p) (h : toCompactDecString x = toCompactDecString y) : x = y := by
  unfold toCompactDecString at h
  split at h <;> split at h
  · exact ZMod.val_injective p (decString_inj h)
  · exfalso
    obtain ⟨c, tl, hs, hc⟩ := decString_head x.val
    rw [toDecString, hs] at h
    simp only [List.cons_append, List.cons.injEq] at h
    exact hc h.1
  · exfalso
    obtain ⟨c, tl, hs, hc⟩ := decString_head y.val
    rw [toDecString.eq_def y, hs] at h
    simp only [List.cons_append, List.cons.injEq] at h
    exact hc h.1.symm
  · have h1 := List.append_cancel_right h
    have h2 := List.append_cancel_left h1
    have h3 := ZMod.val_injective p (decString_inj h2)
    have : maxValue p - x = maxValue p - y := by simpa using h3
    exact sub_right_injective this

/-! Non-vacuity, in the field of 97 elements (7 bits, `max_unique_value` 63). -/
example : toBitsBe (5 : ZMod 97) = [false, false, false, false, true, false, true] := by decide +kernel
example : bits (0 : ZMod 97) = 1 ∧ bits (96 : ZMod 97) = 7 := by decide +kernel
example : checkedAdd (60 : ZMod 97) 3 = .some 63 ∧ checkedAdd (60 : ZMod 97) 4 = .none := by decide +kernel
example : checkedMul (9 : ZMod 97) 7 = .some 63 ∧ checkedMul (8 : ZMod 97) 8 = .none := by decide +kernel
example : toCompactDecString (96 : ZMod 97) = ['(', '-', '1', ')'] := by
  unfold toCompactDecString toDecString decString
  have h1 : ¬ (96 : ZMod 97).val ≤ (97 - 1) / 2 := by decide
  have h2 : (maxValue 97 - (96 : ZMod 97) + 1).val = 1 := by decide
  rw [if_neg h1, h2]
  simp; decide
example : tryFromStr 97 ['9', '7'] 10 = none ∧ tryFromStr 97 ['6', '0'] 16 = some 96 := by decide +kernel
example : (fromByteVector 97 (toByteVector (96 : ZMod 97))) = some 96 ∧ fromByteVector 97 [97, 0, 0, 0, 0, 0, 0, 0] = none := by
  decide +kernel

end Zok
