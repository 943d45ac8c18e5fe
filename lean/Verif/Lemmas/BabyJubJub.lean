import Verif.Lemmas.EdwardsCompute

/-
The curve Baby Jubjub over the field of Bn128.
-/

namespace Zok

theorem bn128_square : IsSquare (168700 : ZMod Bn128) := by
  refine ⟨((7214280148105020021932206872019688659210616427216992810330019057549499971851 : ℕ) : ZMod Bn128), ?_⟩
  rw [← Nat.cast_mul, show (168700 : ZMod Bn128) = ((168700 : ℕ) : ZMod Bn128) by norm_cast, ZMod.natCast_eq_natCast_iff]
  decide +kernel

theorem bn128_nonsquare : ¬ IsSquare (168696 : ZMod Bn128) := by
  have h0 : (168696 : ZMod Bn128) = ((168696 : ℕ) : ZMod Bn128) := by norm_cast
  rw [h0, ZMod.euler_criterion Bn128 (by
    rw [Ne, ZMod.natCast_eq_zero_iff]; decide +kernel), ← Nat.cast_pow, ← Nat.cast_one, ZMod.natCast_eq_natCast_iff, Nat.ModEq, ← powMod_eq 256 _ _ _ (by decide +kernel)]
  decide +kernel

theorem bn128_two : (2 : ZMod Bn128) ≠ 0 := by
  rw [show (2 : ZMod Bn128) = ((2 : ℕ) : ZMod Bn128) by norm_cast, Ne, ZMod.natCast_eq_zero_iff]
  decide +kernel

/-- Baby Jubjub. -/
def babyJubJubCurve : Edwards (ZMod Bn128) where
  a := 168700
  d := 168696
  sq := bn128_square
  nsq := bn128_nonsquare
  two := bn128_two

/-- The coordinates of the generator of `babyjubjubParams.zok`. -/
def babyGu : ℕ := 16540640123574156134436876038791482806971768689494387082833631921987005038935
def babyGv : ℕ := 20819045374670962167435360035096875258406992893633759881276124905556507972311

/-- The generator is a point of the curve. -/
def babyG : babyJubJubCurve.Pt where
  u := (babyGu : ℕ)
  v := (babyGv : ℕ)
  on := by
    have h : ((168700 * babyGu ^ 2 + babyGv ^ 2 : ℕ) : ZMod Bn128) = ((1 + 168696 * babyGu ^ 2 * babyGv ^ 2 : ℕ) : ZMod Bn128) := by
      rw [ZMod.natCast_eq_natCast_iff]
      decide +kernel
    simp only [Nat.cast_add, Nat.cast_mul, Nat.cast_pow, Nat.cast_one, Nat.cast_ofNat] at h
    exact h

theorem babyG_proj : Edwards.Proj (babyGu, babyGv, 1) babyG := by
  simp [Edwards.Proj, babyG]

theorem babyG_smul {k : ℕ} (hk : k < 2 ^ 256) : Edwards.Proj (Edwards.projMul Bn128 168700 168696 256 k (babyGu, babyGv, 1)) (k • babyG) :=
  Edwards.proj_mul (by simp [babyJubJubCurve]) (by simp [babyJubJubCurve]) 256 k _ _ hk babyG_proj

/-- The order of the generator does not divide the order of the field. -/
theorem babyG_modulus : Bn128 • babyG ≠ 0 :=
  Edwards.proj_ne_zero (babyG_smul (by decide +kernel)) (by decide +kernel)

/-- The order of the generator. -/
theorem babyG_order : 2736030358979909402780800718157159386076813972158567259200215660948447373041 • babyG = 0 := by
  have h := babyG_smul (k := 2736030358979909402780800718157159386076813972158567259200215660948447373041) (by decide +kernel)
  have h1 : (Edwards.projMul Bn128 168700 168696 256 2736030358979909402780800718157159386076813972158567259200215660948447373041 (babyGu, babyGv, 1)).1 = 0 := by decide +kernel
  have h2 : (Edwards.projMul Bn128 168700 168696 256 2736030358979909402780800718157159386076813972158567259200215660948447373041 (babyGu, babyGv, 1)).2.1 =
    (Edwards.projMul Bn128 168700 168696 256 2736030358979909402780800718157159386076813972158567259200215660948447373041 (babyGu, babyGv, 1)).2.2 := by decide +kernel
  obtain ⟨hz, hx, hy⟩ := h
  rw [h1, Nat.cast_zero, mul_eq_zero, or_iff_left hz] at hx
  rw [h2, mul_left_eq_self₀, or_iff_left hz] at hy
  exact Edwards.Pt.ext hx hy

end Zok
