import Verif.Spec.Edwards
import Verif.Spec.Curves
import Mathlib.NumberTheory.LegendreSymbol.Basic

/-
Computation of multiples of points of twisted Edwards curves in projective coordinates, for concrete curves.
-/

namespace Zok.Edwards
variable {p : ℕ} [Fact p.Prime] {E : Edwards (ZMod p)}

/-- `x - y` modulo `m`. -/
def subMod (m x y : ℕ) : ℕ := (x + (m - y % m)) % m

theorem subMod_cast (x y : ℕ) : ((subMod p x y : ℕ) : ZMod p) = x - y := by
  have h : y % p ≤ p := (Nat.mod_lt _ (Fact.out : p.Prime).pos).le
  rw [subMod, ZMod.natCast_mod, Nat.cast_add, Nat.cast_sub h, ZMod.natCast_self, ZMod.natCast_mod]
  ring

/-- The addition in projective coordinates. -/
def projAdd (m a d : ℕ) (P Q : ℕ × ℕ × ℕ) : ℕ × ℕ × ℕ :=
  let A := P.2.2 * Q.2.2 % m
  let B := A * A % m
  let C := P.1 * Q.1 % m
  let D := P.2.1 * Q.2.1 % m
  let e := d * C % m * D % m
  let f := subMod m B e
  let g := (B + e) % m
  (A * f % m * ((P.1 * Q.2.1 + P.2.1 * Q.1) % m) % m, A * g % m * subMod m D (a * C) % m, f * g % m)

/-- Projective coordinates of a point. -/
def Proj (P : ℕ × ℕ × ℕ) (Q : E.Pt) : Prop := (P.2.2 : ZMod p) ≠ 0 ∧ Q.u * (P.2.2 : ZMod p) = (P.1 : ZMod p) ∧ Q.v * (P.2.2 : ZMod p) = (P.2.1 : ZMod p)

theorem proj_add {a d : ℕ} (ha : (a : ZMod p) = E.a) (hd : (d : ZMod p) = E.d) {P Q : ℕ × ℕ × ℕ} {R S : E.Pt} (h1 : Proj P R) (h2 : Proj Q S) : Proj (projAdd p a d P Q) (R + S) := by
  obtain ⟨z1, x1, y1⟩ := h1
  obtain ⟨z2, x2, y2⟩ := h2
  have hp := den_plus R.on S.on
  have hm := den_minus R.on S.on
  simp only [Proj, projAdd, add_u, add_v, ZMod.natCast_mod, Nat.cast_mul, subMod_cast, Nat.cast_add, ha, hd, ← x1, ← y1, ← x2, ← y2]
  generalize (P.2.2 : ZMod p) = a1 at *
  generalize (Q.2.2 : ZMod p) = a2 at *
  generalize E.d = d' at *
  generalize E.a = a' at *
  have f1 : a1 * a2 * (a1 * a2) - d' * (R.u * a1 * (S.u * a2)) * (R.v * a1 * (S.v * a2)) = (a1 * a2) ^ 2 * (1 - d' * R.u * S.u * R.v * S.v) := by ring
  have f2 : a1 * a2 * (a1 * a2) + d' * (R.u * a1 * (S.u * a2)) * (R.v * a1 * (S.v * a2)) = (a1 * a2) ^ 2 * (1 + d' * R.u * S.u * R.v * S.v) := by ring
  have hz : a1 * a2 ≠ 0 := mul_ne_zero z1 z2
  refine ⟨?_, ?_, ?_⟩
  · rw [f1, f2]
    exact mul_ne_zero (mul_ne_zero (pow_ne_zero _ hz) hm) (mul_ne_zero (pow_ne_zero _ hz) hp)
  · rw [div_mul_eq_mul_div, div_eq_iff hp]
    ring
  · rw [div_mul_eq_mul_div, div_eq_iff hm]
    ring

/-- `k • P`; `fuel` bounds the number of binary digits of `k`. -/
def projMul (m a d : ℕ) : ℕ → ℕ → ℕ × ℕ × ℕ → ℕ × ℕ × ℕ
  | 0, _, _ => (0, 1, 1)
  | fuel + 1, k, P =>
    let R := projMul m a d fuel (k / 2) (projAdd m a d P P)
    if k % 2 = 1 then projAdd m a d R P else R

theorem proj_mul {a d : ℕ} (ha : (a : ZMod p) = E.a) (hd : (d : ZMod p) = E.d) : ∀ (fuel k : ℕ) (P : ℕ × ℕ × ℕ) (R : E.Pt), k < 2 ^ fuel → Proj P R → Proj (projMul p a d fuel k P) (k • R)
  | 0, k, P, R, hk, _ => by
    have : k = 0 := by simpa using hk
    subst this
    rw [zero_smul]
    simp [Proj, projMul, zero_u, zero_v]
  | fuel + 1, k, P, R, hk, h => by
    have ih := proj_mul ha hd fuel (k / 2) _ (R + R) (by rw [pow_succ] at hk; omega) (proj_add ha hd h h)
    have hR : (k / 2) • (R + R) = (2 * (k / 2)) • R := by rw [← two_nsmul, smul_smul, mul_comm]
    rw [hR] at ih
    rw [projMul]
    split
    · have hk2 : k = 2 * (k / 2) + 1 := by omega
      conv_rhs => rw [hk2, add_smul, one_smul]
      exact proj_add ha hd ih h
    · have hk2 : k = 2 * (k / 2) := by omega
      conv_rhs => rw [hk2]
      exact ih

theorem proj_ne_zero {P : ℕ × ℕ × ℕ} {R : E.Pt} (h : Proj P R) (hx : P.1 % p ≠ 0) : R ≠ 0 := by
  rintro rfl
  have := h.2.1
  rw [zero_u, zero_mul] at this
  exact hx (by rwa [eq_comm, ZMod.natCast_eq_zero_iff, Nat.dvd_iff_mod_eq_zero] at this)

theorem proj_point (R : E.Pt) : Proj (R.u.val, R.v.val, 1) R := by
  simp [Proj]

end Zok.Edwards
