import Mathlib.Algebra.Field.Basic
import Mathlib.Algebra.Group.Even
import Mathlib.Tactic.FieldSimp
import Mathlib.Tactic.LinearCombination
import Mathlib.Tactic.Ring

/-
Specification of twisted Edwards curves `a u² + v² = 1 + d u² v²` and their group, for a square `a` and a non-square `d`.
Reference: D. Bernstein, P. Birkner, M. Joye, T. Lange, C. Peters, Twisted Edwards curves (2008).
-/

namespace Zok

/-- The parameters of a complete twisted Edwards curve. -/
structure Edwards (F : Type) [Field F] where
  a : F
  d : F
  sq : IsSquare a
  nsq : ¬ IsSquare d
  two : (2 : F) ≠ 0

namespace Edwards
variable {F : Type} [Field F] (E : Edwards F)

/-- The points of the curve. -/
def On (u v : F) : Prop := E.a * u ^ 2 + v ^ 2 = 1 + E.d * u ^ 2 * v ^ 2

/-- A point of the curve. -/
@[ext] structure Pt where
  u : F
  v : F
  on : E.On u v

variable {E}

theorem complete_aux {x1 y1 x2 y2 e : F} (h1 : E.On x1 y1) (h2 : E.On x2 y2) (he : e ^ 2 = 1) (h : E.d * x1 * x2 * y1 * y2 = e) : False := by
  obtain ⟨c, hc⟩ := E.sq
  unfold On at h1 h2
  rw [hc] at h1 h2
  have he0 : e ≠ 0 := by rintro rfl; simp at he
  have hx1 : x1 ≠ 0 := by rintro rfl; simp at h; exact he0 h.symm
  have hy1 : y1 ≠ 0 := by rintro rfl; simp at h; exact he0 h.symm
  have hy2 : y2 ≠ 0 := by rintro rfl; simp at h; exact he0 h.symm
  have key : ∀ s : F, s ^ 2 = 1 → E.d * (x1 * y1 * (c * x2 + s * y2)) ^ 2 = (c * x1 + s * e * y1) ^ 2 := by
    intro s hs
    linear_combination (E.d * x1 ^ 2 * y1 ^ 2) * h2 + (E.d * x1 ^ 2 * y1 ^ 2 * y2 ^ 2 - e ^ 2 * y1 ^ 2) * hs + (E.d * x1 * x2 * y1 * y2 + e + 2 * c * s * x1 * y1) * h - h1 + (1 - y1 ^ 2) * he
  have hsq : ∀ s : F, s ^ 2 = 1 → c * x2 + s * y2 = 0 := by
    intro s hs
    by_contra hn
    have hne : x1 * y1 * (c * x2 + s * y2) ≠ 0 := mul_ne_zero (mul_ne_zero hx1 hy1) hn
    refine E.nsq ⟨(c * x1 + s * e * y1) / (x1 * y1 * (c * x2 + s * y2)), ?_⟩
    have := key s hs
    field_simp
    linear_combination this
  have e1 := hsq 1 (by ring)
  have e2 := hsq (-1) (by ring)
  have : 2 * y2 = 0 := by linear_combination e1 - e2
  rcases mul_eq_zero.1 this with h | h
  · exact E.two h
  · exact hy2 h

/-- The denominators of the addition law are not `0` on the curve. -/
theorem den_plus {x1 y1 x2 y2 : F} (h1 : E.On x1 y1) (h2 : E.On x2 y2) : 1 + E.d * x1 * x2 * y1 * y2 ≠ 0 := fun h =>
  complete_aux h1 h2 (e := -1) (by ring) (by linear_combination h)

theorem den_minus {x1 y1 x2 y2 : F} (h1 : E.On x1 y1) (h2 : E.On x2 y2) : 1 - E.d * x1 * x2 * y1 * y2 ≠ 0 := fun h =>
  complete_aux h1 h2 (e := 1) (by ring) (by linear_combination -h)

theorem add_on {x1 y1 x2 y2 : F} (h1 : E.On x1 y1) (h2 : E.On x2 y2) :
    E.On ((x1 * y2 + y1 * x2) / (1 + E.d * x1 * x2 * y1 * y2)) ((y1 * y2 - E.a * x1 * x2) / (1 - E.d * x1 * x2 * y1 * y2)) := by
  have hp := den_plus h1 h2
  have hm := den_minus h1 h2
  unfold On at h1 h2 ⊢
  generalize E.a = a at *
  generalize E.d = d at *
  have h1 : a * x1 ^ 2 + y1 ^ 2 - 1 - d * x1 ^ 2 * y1 ^ 2 = 0 := by linear_combination h1
  have h2 : a * x2 ^ 2 + y2 ^ 2 - 1 - d * x2 ^ 2 * y2 ^ 2 = 0 := by linear_combination h2
  have key : a * (x1 * y2 + y1 * x2) ^ 2 * (1 - d * x1 * x2 * y1 * y2) ^ 2 + (y1 * y2 - a * x1 * x2) ^ 2 * (1 + d * x1 * x2 * y1 * y2) ^ 2 =
      (1 + d * x1 * x2 * y1 * y2) ^ 2 * (1 - d * x1 * x2 * y1 * y2) ^ 2 + d * (x1 * y2 + y1 * x2) ^ 2 * (y1 * y2 - a * x1 * x2) ^ 2 := by
    linear_combination (x1^2*y1^2*x2^4*a^2*d + 2*x1^2*y1^2*x2^2*a^2 - 2*x1^2*y1^2*x2^2*a*d + x1^2*y1^2*y2^4*d + 2*x1^2*y1^2*y2^2*a - 2*x1^2*y1^2*y2^2*d - 2*x1^2*y1^2*a + x1^2*y1^2*d - x1^2*x2^2*a^2 -
      x1^2*y2^2*a + x1^2*a - y1^2*x2^2*a - y1^2*y2^2 + y1^2 + 1) * h1 + (x1^4*y1^4*x2^2*y2^2*d^3 + x1^4*y1^4*x2^2*a*d^2 + x1^4*y1^4*y2^2*d^2 + 2*x1^4*y1^4*a*d - x1^4*y1^4*d^2 -
      x1^4*y1^2*x2^2*a^2*d - x1^4*y1^2*y2^2*a*d - 2*x1^4*y1^2*a^2 + x1^4*a^2 - x1^2*y1^4*x2^2*a*d - x1^2*y1^4*y2^2*d - 2*x1^2*y1^4*a + 4*x1^2*y1^2*a - 2*x1^2*y1^2*d + y1^4) * h2
  generalize 1 + d * x1 * x2 * y1 * y2 = A at *
  generalize 1 - d * x1 * x2 * y1 * y2 = B at *
  field_simp
  linear_combination key

/-- The neutral element, `[0, 1]`. -/
instance : Zero E.Pt := ⟨⟨0, 1, by unfold On; ring⟩⟩
/-- The sum of two points. -/
instance : Add E.Pt := ⟨fun P Q => ⟨(P.u * Q.v + P.v * Q.u) / (1 + E.d * P.u * Q.u * P.v * Q.v), (P.v * Q.v - E.a * P.u * Q.u) / (1 - E.d * P.u * Q.u * P.v * Q.v), add_on P.on Q.on⟩⟩
/-- The opposite of a point. -/
instance : Neg E.Pt := ⟨fun P => ⟨-P.u, P.v, by have := P.on; unfold On at *; linear_combination this⟩⟩

theorem zero_u : (0 : E.Pt).u = 0 := rfl
theorem zero_v : (0 : E.Pt).v = 1 := rfl
theorem neg_u (P : E.Pt) : (-P).u = -P.u := rfl
theorem neg_v (P : E.Pt) : (-P).v = P.v := rfl
theorem add_u (P Q : E.Pt) : (P + Q).u = (P.u * Q.v + P.v * Q.u) / (1 + E.d * P.u * Q.u * P.v * Q.v) := rfl
theorem add_v (P Q : E.Pt) : (P + Q).v = (P.v * Q.v - E.a * P.u * Q.u) / (1 - E.d * P.u * Q.u * P.v * Q.v) := rfl

theorem pt_add_comm (P Q : E.Pt) : P + Q = Q + P := by
  ext
  · rw [add_u, add_u]; ring_nf
  · rw [add_v, add_v]; ring_nf

theorem pt_zero_add (P : E.Pt) : 0 + P = P := by
  ext
  · rw [add_u, zero_u, zero_v]; simp
  · rw [add_v, zero_u, zero_v]; simp

theorem pt_neg_add (P : E.Pt) : -P + P = 0 := by
  have h := P.on
  have hm := den_minus (-P).on P.on
  unfold On at h
  ext
  · rw [add_u, neg_u, neg_v, zero_u]; ring_nf
  · rw [add_v, zero_v, div_eq_one_iff_eq hm, neg_u, neg_v]
    linear_combination h

theorem assoc_u {a d x1 y1 x2 y2 x3 y3 : F} (h1 : a * x1 ^ 2 + y1 ^ 2 - 1 - d * x1 ^ 2 * y1 ^ 2 = 0) (h2 : a * x2 ^ 2 + y2 ^ 2 - 1 - d * x2 ^ 2 * y2 ^ 2 = 0)
    (h3 : a * x3 ^ 2 + y3 ^ 2 - 1 - d * x3 ^ 2 * y3 ^ 2 = 0) :
    ((x1 * y2 + y1 * x2) * y3 * (1 - d * x1 * x2 * y1 * y2) + (y1 * y2 - a * x1 * x2) * x3 * (1 + d * x1 * x2 * y1 * y2)) *
      ((1 + d * x2 * x3 * y2 * y3) * (1 - d * x2 * x3 * y2 * y3) + d * (x2 * y3 + y2 * x3) * (y2 * y3 - a * x2 * x3) * x1 * y1) =
    (x1 * (y2 * y3 - a * x2 * x3) * (1 + d * x2 * x3 * y2 * y3) + y1 * (x2 * y3 + y2 * x3) * (1 - d * x2 * x3 * y2 * y3)) *
      ((1 + d * x1 * x2 * y1 * y2) * (1 - d * x1 * x2 * y1 * y2) + d * (x1 * y2 + y1 * x2) * (y1 * y2 - a * x1 * x2) * x3 * y3) := by
  linear_combination (- x1*x2^3*x3^3*a^3 - x1*x2^3*x3*y3^2*a^2 + x1*x2^3*x3*a^2 + x1*x2^2*y2*x3^2*y3*a^2 - x1*x2^2*y2*x3^2*y3*a*d + x1*x2^2*y2*y3^3*a - x1*x2^2*y2*y3*a - x1*x2*y2^2*x3^3*a^2 -
    x1*x2*y2^2*x3*y3^2*a + x1*x2*y2^2*x3*y3^2*d + x1*x2*y2^2*x3*a + x1*x2*x3^3*a^2 + x1*x2*x3*y3^2*a - x1*x2*x3*a + x1*y2^3*x3^2*y3*a + x1*y2^3*y3^3 - x1*y2^3*y3 - x1*y2*x3^2*y3*a -
    x1*y2*y3^3 + x1*y2*y3 + y1*x2^3*x3^2*y3*a^2 + y1*x2^3*y3^3*a - y1*x2^3*y3*a + y1*x2^2*y2*x3^3*a^2 + y1*x2^2*y2*x3*y3^2*a - y1*x2^2*y2*x3*y3^2*d - y1*x2^2*y2*x3*a + y1*x2*y2^2*x3^2*y3*a -
    y1*x2*y2^2*x3^2*y3*d + y1*x2*y2^2*y3^3 - y1*x2*y2^2*y3 - y1*x2*x3^2*y3*a - y1*x2*y3^3 + y1*x2*y3 + y1*y2^3*x3^3*a + y1*y2^3*x3*y3^2 - y1*y2^3*x3 - y1*y2*x3^3*a - y1*y2*x3*y3^2 +
    y1*y2*x3) * h1 + (x1^3*y1^2*x2^2*y2*x3^2*y3*a*d^2 - x1^3*y1^2*x2*y2^2*x3*y3^2*d^2 - x1^3*y1^2*x2*x3^3*a^2*d - x1^3*y1^2*x2*x3*y3^2*a*d + x1^3*y1^2*x2*x3*a*d + x1^3*y1^2*y2*x3^2*y3*a*d +
    x1^3*y1^2*y2*y3^3*d - x1^3*y1^2*y2*y3*d + x1^3*x2*x3^3*a^3 + x1^3*x2*x3*y3^2*a^2 - x1^3*x2*x3*a^2 - x1^3*y2*x3^2*y3*a^2 - x1^3*y2*y3^3*a + x1^3*y2*y3*a + x1^2*y1^3*x2^2*y2*x3*y3^2*d^2 +
    x1^2*y1^3*x2*y2^2*x3^2*y3*d^2 + x1^2*y1^3*x2*x3^2*y3*a*d + x1^2*y1^3*x2*y3^3*d - x1^2*y1^3*x2*y3*d + x1^2*y1^3*y2*x3^3*a*d + x1^2*y1^3*y2*x3*y3^2*d - x1^2*y1^3*y2*x3*d -
    x1^2*y1*x2^2*y2*x3^3*a^2*d - x1^2*y1*x2^2*y2*x3*y3^2*a*d + x1^2*y1*x2^2*y2*x3*a*d - x1^2*y1*x2*y2^2*x3^2*y3*a*d - x1^2*y1*x2*y2^2*y3^3*d + x1^2*y1*x2*y2^2*y3*d - x1^2*y1*x2*x3^2*y3*a^2 -
    x1^2*y1*x2*y3^3*a + x1^2*y1*x2*y3*a - x1^2*y1*y2*x3^3*a^2 - x1^2*y1*y2*x3*y3^2*a + x1^2*y1*y2*x3*a - x1*y1^2*x2^2*y2*x3^2*y3*a*d - x1*y1^2*x2^2*y2*y3^3*d + x1*y1^2*x2^2*y2*y3*d +
    x1*y1^2*x2*y2^2*x3^3*a*d + x1*y1^2*x2*y2^2*x3*y3^2*d - x1*y1^2*x2*y2^2*x3*d + x1*y1^2*x2*x3^3*a^2 + x1*y1^2*x2*x3*y3^2*a - x1*y1^2*x2*x3*a - x1*y1^2*y2*x3^2*y3*a - x1*y1^2*y2*y3^3 +
    x1*y1^2*y2*y3 - x1*x2*x3^3*a^2 - x1*x2*x3*y3^2*a + x1*x2*x3*a + x1*y2*x3^2*y3*a + x1*y2*y3^3 - x1*y2*y3 - y1^3*x2*x3^2*y3*a - y1^3*x2*y3^3 + y1^3*x2*y3 - y1^3*y2*x3^3*a - y1^3*y2*x3*y3^2
    + y1^3*y2*x3 + y1*x2*x3^2*y3*a + y1*x2*y3^3 - y1*x2*y3 + y1*y2*x3^3*a + y1*y2*x3*y3^2 - y1*y2*x3) * h2 + (x1^3*x2^3*y2^2*x3*a^2*d - x1^3*x2^2*y2^3*y3*a*d - x1^2*y1*x2^4*y2^3*x3*a*d^2 +
    x1^2*y1*x2^4*y2*x3*a^2*d - x1^2*y1*x2^3*y2^4*y3*d^2 + x1^2*y1*x2*y2^4*y3*d - x1*y1^2*x2^4*y2^3*y3*d^2 + x1*y1^2*x2^4*y2*y3*a*d + x1*y1^2*x2^3*y2^4*x3*d^2 - x1*y1^2*x2*y2^4*x3*d -
    x1*x2^3*y2^2*x3*a*d + x1*x2^2*y2^3*y3*d - y1^3*x2^3*y2^2*y3*d - y1^3*x2^2*y2^3*x3*d + y1*x2^3*y2^2*y3*d + y1*x2^2*y2^3*x3*d) * h3

theorem assoc_v {a d x1 y1 x2 y2 x3 y3 : F} (h1 : a * x1 ^ 2 + y1 ^ 2 - 1 - d * x1 ^ 2 * y1 ^ 2 = 0) (h2 : a * x2 ^ 2 + y2 ^ 2 - 1 - d * x2 ^ 2 * y2 ^ 2 = 0)
    (h3 : a * x3 ^ 2 + y3 ^ 2 - 1 - d * x3 ^ 2 * y3 ^ 2 = 0) :
    ((y1 * y2 - a * x1 * x2) * y3 * (1 + d * x1 * x2 * y1 * y2) - a * (x1 * y2 + y1 * x2) * x3 * (1 - d * x1 * x2 * y1 * y2)) *
      ((1 + d * x2 * x3 * y2 * y3) * (1 - d * x2 * x3 * y2 * y3) - d * (x2 * y3 + y2 * x3) * (y2 * y3 - a * x2 * x3) * x1 * y1) =
    (y1 * (y2 * y3 - a * x2 * x3) * (1 + d * x2 * x3 * y2 * y3) - a * x1 * (x2 * y3 + y2 * x3) * (1 - d * x2 * x3 * y2 * y3)) *
      ((1 + d * x1 * x2 * y1 * y2) * (1 - d * x1 * x2 * y1 * y2) - d * (x1 * y2 + y1 * x2) * (y1 * y2 - a * x1 * x2) * x3 * y3) := by
  linear_combination (- x1*x2^3*x3^2*y3*a^3 - x1*x2^3*y3^3*a^2 + x1*x2^3*y3*a^2 - x1*x2^2*y2*x3^3*a^3 - x1*x2^2*y2*x3*y3^2*a^2 + x1*x2^2*y2*x3*y3^2*a*d + x1*x2^2*y2*x3*a^2 - x1*x2*y2^2*x3^2*y3*a^2 +
    x1*x2*y2^2*x3^2*y3*a*d - x1*x2*y2^2*y3^3*a + x1*x2*y2^2*y3*a + x1*x2*x3^2*y3*a^2 + x1*x2*y3^3*a - x1*x2*y3*a - x1*y2^3*x3^3*a^2 - x1*y2^3*x3*y3^2*a + x1*y2^3*x3*a + x1*y2*x3^3*a^2 +
    x1*y2*x3*y3^2*a - x1*y2*x3*a - y1*x2^3*x3^3*a^3 - y1*x2^3*x3*y3^2*a^2 + y1*x2^3*x3*a^2 + y1*x2^2*y2*x3^2*y3*a^2 - y1*x2^2*y2*x3^2*y3*a*d + y1*x2^2*y2*y3^3*a - y1*x2^2*y2*y3*a -
    y1*x2*y2^2*x3^3*a^2 - y1*x2*y2^2*x3*y3^2*a + y1*x2*y2^2*x3*y3^2*d + y1*x2*y2^2*x3*a + y1*x2*x3^3*a^2 + y1*x2*x3*y3^2*a - y1*x2*x3*a + y1*y2^3*x3^2*y3*a + y1*y2^3*y3^3 - y1*y2^3*y3 -
    y1*y2*x3^2*y3*a - y1*y2*y3^3 + y1*y2*y3) * h1 + (- x1^3*y1^2*x2^2*y2*x3*y3^2*a*d^2 - x1^3*y1^2*x2*y2^2*x3^2*y3*a*d^2 - x1^3*y1^2*x2*x3^2*y3*a^2*d - x1^3*y1^2*x2*y3^3*a*d +
    x1^3*y1^2*x2*y3*a*d - x1^3*y1^2*y2*x3^3*a^2*d - x1^3*y1^2*y2*x3*y3^2*a*d + x1^3*y1^2*y2*x3*a*d + x1^3*x2*x3^2*y3*a^3 + x1^3*x2*y3^3*a^2 - x1^3*x2*y3*a^2 + x1^3*y2*x3^3*a^3 +
    x1^3*y2*x3*y3^2*a^2 - x1^3*y2*x3*a^2 + x1^2*y1^3*x2^2*y2*x3^2*y3*a*d^2 - x1^2*y1^3*x2*y2^2*x3*y3^2*d^2 - x1^2*y1^3*x2*x3^3*a^2*d - x1^2*y1^3*x2*x3*y3^2*a*d + x1^2*y1^3*x2*x3*a*d +
    x1^2*y1^3*y2*x3^2*y3*a*d + x1^2*y1^3*y2*y3^3*d - x1^2*y1^3*y2*y3*d - x1^2*y1*x2^2*y2*x3^2*y3*a^2*d - x1^2*y1*x2^2*y2*y3^3*a*d + x1^2*y1*x2^2*y2*y3*a*d + x1^2*y1*x2*y2^2*x3^3*a^2*d +
    x1^2*y1*x2*y2^2*x3*y3^2*a*d - x1^2*y1*x2*y2^2*x3*a*d + x1^2*y1*x2*x3^3*a^3 + x1^2*y1*x2*x3*y3^2*a^2 - x1^2*y1*x2*x3*a^2 - x1^2*y1*y2*x3^2*y3*a^2 - x1^2*y1*y2*y3^3*a + x1^2*y1*y2*y3*a +
    x1*y1^2*x2^2*y2*x3^3*a^2*d + x1*y1^2*x2^2*y2*x3*y3^2*a*d - x1*y1^2*x2^2*y2*x3*a*d + x1*y1^2*x2*y2^2*x3^2*y3*a*d + x1*y1^2*x2*y2^2*y3^3*d - x1*y1^2*x2*y2^2*y3*d + x1*y1^2*x2*x3^2*y3*a^2 +
    x1*y1^2*x2*y3^3*a - x1*y1^2*x2*y3*a + x1*y1^2*y2*x3^3*a^2 + x1*y1^2*y2*x3*y3^2*a - x1*y1^2*y2*x3*a - x1*x2*x3^2*y3*a^2 - x1*x2*y3^3*a + x1*x2*y3*a - x1*y2*x3^3*a^2 - x1*y2*x3*y3^2*a +
    x1*y2*x3*a + y1^3*x2*x3^3*a^2 + y1^3*x2*x3*y3^2*a - y1^3*x2*x3*a - y1^3*y2*x3^2*y3*a - y1^3*y2*y3^3 + y1^3*y2*y3 - y1*x2*x3^3*a^2 - y1*x2*x3*y3^2*a + y1*x2*x3*a + y1*y2*x3^2*y3*a +
    y1*y2*y3^3 - y1*y2*y3) * h2 + (x1^3*x2^3*y2^2*y3*a^2*d + x1^3*x2^2*y2^3*x3*a^2*d - x1^2*y1*x2^4*y2^3*y3*a*d^2 + x1^2*y1*x2^4*y2*y3*a^2*d + x1^2*y1*x2^3*y2^4*x3*a*d^2 -
    x1^2*y1*x2*y2^4*x3*a*d + x1*y1^2*x2^4*y2^3*x3*a*d^2 - x1*y1^2*x2^4*y2*x3*a^2*d + x1*y1^2*x2^3*y2^4*y3*d^2 - x1*y1^2*x2*y2^4*y3*d - x1*x2^3*y2^2*y3*a*d - x1*x2^2*y2^3*x3*a*d +
    y1^3*x2^3*y2^2*x3*a*d - y1^3*x2^2*y2^3*y3*d - y1*x2^3*y2^2*x3*a*d + y1*x2^2*y2^3*y3*d) * h3

theorem pt_add_assoc (P Q R : E.Pt) : P + Q + R = P + (Q + R) := by
  have hPQ := den_plus P.on Q.on
  have hPQ' := den_minus P.on Q.on
  have hQR := den_plus Q.on R.on
  have hQR' := den_minus Q.on R.on
  have k1 := den_plus (P + Q).on R.on
  have k1' := den_minus (P + Q).on R.on
  have k2 := den_plus P.on (Q + R).on
  have k2' := den_minus P.on (Q + R).on
  have o1 := P.on
  have o2 := Q.on
  have o3 := R.on
  unfold On at o1 o2 o3
  have h1 : E.a * P.u ^ 2 + P.v ^ 2 - 1 - E.d * P.u ^ 2 * P.v ^ 2 = 0 := by linear_combination o1
  have h2 : E.a * Q.u ^ 2 + Q.v ^ 2 - 1 - E.d * Q.u ^ 2 * Q.v ^ 2 = 0 := by linear_combination o2
  have h3 : E.a * R.u ^ 2 + R.v ^ 2 - 1 - E.d * R.u ^ 2 * R.v ^ 2 = 0 := by linear_combination o3
  ext
  · rw [add_u (P + Q) R, add_u P (Q + R), div_eq_div_iff k1 k2, add_u P Q, add_v P Q, add_u Q R, add_v Q R]
    have := assoc_u h1 h2 h3
    generalize 1 + E.d * P.u * Q.u * P.v * Q.v = A at *
    generalize 1 - E.d * P.u * Q.u * P.v * Q.v = B at *
    generalize 1 + E.d * Q.u * R.u * Q.v * R.v = C at *
    generalize 1 - E.d * Q.u * R.u * Q.v * R.v = D at *
    field_simp
    linear_combination this
  · rw [add_v (P + Q) R, add_v P (Q + R), div_eq_div_iff k1' k2', add_u P Q, add_v P Q, add_u Q R, add_v Q R]
    have := assoc_v h1 h2 h3
    generalize 1 + E.d * P.u * Q.u * P.v * Q.v = A at *
    generalize 1 - E.d * P.u * Q.u * P.v * Q.v = B at *
    generalize 1 + E.d * Q.u * R.u * Q.v * R.v = C at *
    generalize 1 - E.d * Q.u * R.u * Q.v * R.v = D at *
    field_simp
    linear_combination this

/-- The points of the curve are a commutative group. -/
instance : AddCommGroup E.Pt where
  add_assoc := pt_add_assoc
  zero_add := pt_zero_add
  add_zero P := by rw [pt_add_comm, pt_zero_add]
  neg_add_cancel := pt_neg_add
  add_comm := pt_add_comm
  nsmul := nsmulRec
  zsmul := zsmulRec

end Edwards
end Zok
