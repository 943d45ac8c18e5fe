import Mathlib.Data.ZMod.Basic
import Mathlib.Algebra.Group.Hom.Basic
import Mathlib.Tactic.Abel

/-
Specification of Groth16 and GM17 verification: two groups with a bilinear pairing, and the equations of the schemes. Independent of the code.
-/

namespace Zok.Groth

/-- A pairing of two groups of points (all groups are written additively, also the target group) over the prime field of `q`
elements and its quadratic extension, whose elements `c0 + c1 u` are pairs `(c0, c1)`. Finite points have affine coordinates. -/
structure PairingCurve (q : ℕ) (G1 G2 GT : Type) [AddCommGroup G1] [AddCommGroup G2] [AddCommGroup GT] where
  /-- Affine coordinates; `none` for the point at infinity. -/
  coords1 : G1 → Option (ZMod q × ZMod q)
  coords2 : G2 → Option ((ZMod q × ZMod q) × (ZMod q × ZMod q))
  pair : G1 →+ G2 →+ GT
  inj1 : Function.Injective coords1
  inj2 : Function.Injective coords2
  zero1 : coords1 0 = none
  zero2 : coords2 0 = none
  /-- Short Weierstrass form. -/
  neg1 : ∀ P x y, coords1 P = some (x, y) → coords1 (-P) = some (x, -y)
  /-- No point of order two. -/
  y1 : ∀ P x y, coords1 P = some (x, y) → y ≠ 0
  /-- The origin is not on the second curve. -/
  origin2 : ∀ Q, coords2 Q ≠ some ((0, 0), (0, 0))

/-- A verification key. -/
structure Key (G1 G2 : Type) where
  alpha : G1
  beta : G2
  gamma : G2
  delta : G2
  gammaAbc : List G1

/-- The points of a proof. -/
structure Points (G1 G2 : Type) where
  a : G1
  b : G2
  c : G1

variable {q : ℕ} {G1 G2 GT : Type} [AddCommGroup G1] [AddCommGroup G2] [AddCommGroup GT]

/-- `Σ nᵢ Pᵢ`. -/
def msm : List ℕ → List G1 → G1
  | n :: ns, P :: Ps => n • P + msm ns Ps
  | _, _ => 0

/-- The proof is valid for the public inputs: `e(A, B) = e(α, β) + e(K₀ + Σ xᵢ Kᵢ₊₁, γ) + e(C, δ)`. -/
def Valid (E : PairingCurve q G1 G2 GT) (vk : Key G1 G2) (pf : Points G1 G2) (xs : List ℕ) : Prop :=
  ∃ k ks, vk.gammaAbc = k :: ks ∧ ks.length = xs.length ∧
    E.pair pf.a pf.b = E.pair vk.alpha vk.beta + E.pair (k + msm xs ks) vk.gamma + E.pair pf.c vk.delta

/-- A verification key of GM17. -/
structure Key17 (G1 G2 : Type) where
  h : G2
  gAlpha : G1
  hBeta : G2
  gGamma : G1
  hGamma : G2
  query : List G1

/-- The proof is valid in GM17: `e(A + Gα, B + Hβ) = e(Gα, Hβ) + e(K₀ + Σ xᵢ Kᵢ₊₁, Hγ) + e(C, H)` and `e(A, Hγ) = e(Gγ, B)`. -/
def Valid17 (E : PairingCurve q G1 G2 GT) (vk : Key17 G1 G2) (pf : Points G1 G2) (xs : List ℕ) : Prop :=
  ∃ k ks, vk.query = k :: ks ∧ ks.length = xs.length ∧
    E.pair (pf.a + vk.gAlpha) (pf.b + vk.hBeta) =
      E.pair vk.gAlpha vk.hBeta + E.pair (k + msm xs ks) vk.hGamma + E.pair pf.c vk.h ∧
    E.pair pf.a vk.hGamma = E.pair vk.gGamma pf.b

/-- The words `c` denote the point, up to adding multiples of `q` to the second one. -/
def Denotes (E : PairingCurve q G1 G2 GT) (c : ℕ × ℕ) (P : G1) : Prop := match E.coords1 P with
  | none => c = (0, 0)
  | some (x, y) => c.1 = x.val ∧ c.2 % q = y.val

end Zok.Groth
