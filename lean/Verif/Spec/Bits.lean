import Mathlib.Algebra.Field.Basic

/-
Specification of big-endian bit vectors.
-/

namespace Zok

/-- The `w` low-order binary digits of `x`, most significant first. -/
def bitsBE : Nat → Nat → List Bool
  | 0, _ => []
  | w + 1, x => x.testBit w :: bitsBE w x

/-- The natural number a big-endian bit vector denotes. -/
def natBE : List Bool → Nat
  | [] => 0
  | b :: bs => b.toNat * 2 ^ bs.length + natBE bs

/-- The weighted sum `∑ 2^i * bit_i` of a big-endian vector of ring elements. -/
def sumBE {R : Type _} [CommSemiring R] : List R → R
  | [] => 0
  | b :: bs => b * 2 ^ bs.length + sumBE bs

/-- `T::from(bool)`. -/
def boolF {R : Type _} [Zero R] [One R] (b : Bool) : R := if b then 1 else 0

end Zok
