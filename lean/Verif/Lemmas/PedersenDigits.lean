import Verif.Lemmas.PedersenCompute
import Mathlib.Data.List.GetD

/-
The signed digits of the Pedersen hash are unique; computation of the hash.
-/

namespace Zok.Pedersen
open Edwards

theorem digit_bound (b0 b1 b2 : Bool) : |digit b0 b1 b2| ≤ 4 := by revert b0 b1 b2; decide
theorem digit_inj {b0 b1 b2 c0 c1 c2 : Bool} (h : digit b0 b1 b2 = digit c0 c1 c2) : b0 = c0 ∧ b1 = c1 ∧ b2 = c2 := by revert b0 b1 b2 c0 c1 c2; decide
theorem chunk_bound (m : List Bool) (k : ℕ) : |chunk m k| ≤ 4 := digit_bound _ _ _

theorem digits_unique : ∀ (n : ℕ) (c c' : ℕ → ℤ), (∀ i, |c i| ≤ 4) → (∀ i, |c' i| ≤ 4) → ∑ i ∈ Finset.range n, c i * 16 ^ i = ∑ i ∈ Finset.range n, c' i * 16 ^ i → ∀ i < n, c i = c' i
  | 0, _, _, _, _, _ => fun i hi => absurd hi (by omega)
  | n + 1, c, c', h, h', e => by
    rw [Finset.sum_range_succ', Finset.sum_range_succ'] at e
    have hs : ∀ c : ℕ → ℤ, ∑ i ∈ Finset.range n, c (i + 1) * 16 ^ (i + 1) = 16 * ∑ i ∈ Finset.range n, c (i + 1) * 16 ^ i := by
      intro c
      rw [Finset.mul_sum]
      exact Finset.sum_congr rfl fun i _ => by ring
    rw [hs, hs] at e
    simp only [pow_zero, mul_one] at e
    have b := abs_le.1 (h 0)
    have b' := abs_le.1 (h' 0)
    have e0 : c 0 = c' 0 := by omega
    have e1 := digits_unique n (fun i => c (i + 1)) (fun i => c' (i + 1)) (fun i => h _) (fun i => h' _) (by omega)
    intro i hi
    cases i with
    | zero => exact e0
    | succ i => exact e1 i (by omega)

theorem digits_bound (c : ℕ → ℤ) (h : ∀ i, |c i| ≤ 4) : ∀ n, 15 * |∑ i ∈ Finset.range n, c i * 16 ^ i| ≤ 4 * (16 ^ n - 1)
  | 0 => by simp
  | n + 1 => by
    rw [Finset.sum_range_succ]
    have ih := digits_bound c h n
    have h1 : |c n * 16 ^ n| ≤ 4 * 16 ^ n := by
      rw [abs_mul, abs_of_pos (show (0 : ℤ) < 16 ^ n by positivity)]
      exact mul_le_mul_of_nonneg_right (h n) (by positivity)
    have h2 := abs_add_le (∑ i ∈ Finset.range n, c i * 16 ^ i) (c n * 16 ^ n)
    rw [pow_succ]
    linarith

theorem scalar_bound (m : List Bool) (s n : ℕ) (hn : n ≤ 62) : |scalar m s n| < 2 ^ 247 := by
  have h := digits_bound (fun i => chunk m (62 * s + i)) (fun i => chunk_bound _ _) n
  have h1 : (16 : ℤ) ^ n ≤ 16 ^ 62 := pow_le_pow_right₀ (by norm_num) hn
  rw [scalar]
  have h2 : (4 : ℤ) * (16 ^ 62 - 1) < 15 * 2 ^ 247 := by norm_num
  linarith

/-- Different messages have different scalars. -/
theorem scalar_inj {m m' : List Bool} (hm : m.length = 512) (hm' : m'.length = 512) (h0 : scalar m 0 62 = scalar m' 0 62) (h1 : scalar m 1 62 = scalar m' 1 62) (h2 : scalar m 2 47 = scalar m' 2 47) : m = m' := by
  have hc : ∀ k < 171, chunk m k = chunk m' k := by
    intro k hk
    have key : ∀ s n, scalar m s n = scalar m' s n → ∀ i < n, chunk m (62 * s + i) = chunk m' (62 * s + i) := fun s n h =>
      digits_unique n (fun i => chunk m (62 * s + i)) (fun i => chunk m' (62 * s + i)) (fun i => chunk_bound _ _) (fun i => chunk_bound _ _) h
    by_cases k0 : k < 62
    · simpa using key 0 62 h0 k k0
    · by_cases k1 : k < 124
      · have := key 1 62 h1 (k - 62) (by omega)
        rwa [show 62 * 1 + (k - 62) = k by omega] at this
      · have := key 2 47 h2 (k - 124) (by omega)
        rwa [show 62 * 2 + (k - 124) = k by omega] at this
  refine List.ext_getElem (by omega) fun i h3 h4 => ?_
  have hd := digit_inj (hc (i / 3) (by omega))
  have hi : i = 3 * (i / 3) + i % 3 := by omega
  have hg : m.getD i false = m'.getD i false := by
    have h5 : i % 3 = 0 ∨ i % 3 = 1 ∨ i % 3 = 2 := by omega
    rcases h5 with h5 | h5 | h5 <;> rw [h5] at hi <;> rw [hi]
    · exact hd.1
    · exact hd.2.1
    · exact hd.2.2
  rwa [List.getD_eq_getElem _ _ h3, List.getD_eq_getElem _ _ h4] at hg

/-! ### Computation -/

open Typed.Std

/-- The multiple of the point with the coordinates `u` and `v` by an integer. -/
def mulZ (n : ℤ) (u v : ℕ) : ℕ × ℕ × ℕ := projMul Bn128 168700 168696 256 n.natAbs (if n < 0 then subMod Bn128 0 u else u, v, 1)

theorem mulZ_proj {n : ℤ} (hn : n.natAbs < 2 ^ 256) {R : babyJubJubCurve.Pt} {u v : ℕ} (h : At R u v) : Proj (mulZ n u v) (n • R) := by
  have hm : ∀ (Q : babyJubJubCurve.Pt) (P : ℕ × ℕ × ℕ), Proj P Q → Proj (projMul Bn128 168700 168696 256 n.natAbs P) (n.natAbs • Q) := fun Q P h =>
    proj_mul (by simp [babyJubJubCurve]) (by simp [babyJubJubCurve]) 256 _ _ _ hn h
  rw [mulZ]
  by_cases h0 : n < 0
  · rw [if_pos h0]
    have := hm (-R) (subMod Bn128 0 u, v, 1) ⟨by simp, by simp [subMod_cast, neg_u, h.1], by simp [neg_v, h.2]⟩
    have e : n • R = n.natAbs • (-R) := by
      conv_lhs => rw [show n = -(n.natAbs : ℤ) by omega]
      rw [neg_smul, natCast_zsmul, smul_neg]
    rwa [e]
  · rw [if_neg h0]
    have := hm R (u, v, 1) (at_proj h)
    have e : n • R = n.natAbs • R := by
      conv_lhs => rw [show n = (n.natAbs : ℤ) by omega]
      rw [natCast_zsmul]
    rwa [e]

end Zok.Pedersen
