import Mathlib.Data.Matrix.Mul

/-
Specification of Poseidon (https://eprint.iacr.org/2019/458), with the fifth power and 8 full rounds, for any round constants and any matrix.
-/

namespace Zok.Poseidon
variable {F : Type} [CommRing F] {t : ℕ}

/-- A round: the constants are added, then the fifth power of all elements (full round) or of the first one (partial round) is taken, then the state is multiplied by the matrix. -/
def round (M : Matrix (Fin t) (Fin t) F) (c : Fin t → F) (full : Prop) [Decidable full] (s : Fin t → F) : Fin t → F :=
  M.mulVec fun i => if full ∨ i.val = 0 then (s i + c i) ^ 5 else s i + c i

/-- The first `n` rounds: round `r` uses the constants from number `r t` on; it is a full round if it is one of the first 4 or if it comes after the partial rounds. -/
def rounds (M : Matrix (Fin t) (Fin t) F) (c : ℕ → F) (rp : ℕ) (s : Fin t → F) : ℕ → Fin t → F
  | 0 => s
  | r + 1 => round M (fun i => c (r * t + i)) (r < 4 ∨ 4 + rp ≤ r) (rounds M c rp s r)

/-- The permutation: 4 full rounds, `rp` partial rounds, 4 full rounds. -/
def permute (M : Matrix (Fin t) (Fin t) F) (c : ℕ → F) (rp : ℕ) (s : Fin t → F) : Fin t → F := rounds M c rp s (4 + rp + 4)

/-- The hash of `t` elements: the first element of the permutation of the state which consists of 0 and the inputs. -/
def hash (M : Matrix (Fin (t + 1)) (Fin (t + 1)) F) (c : ℕ → F) (rp : ℕ) (x : Fin t → F) : F := permute M c rp (Fin.cons 0 x) 0

/-- The numbers of partial rounds for 2, ..., 7 elements in the state (table 8 of the paper, rounded up as in the reference implementation). -/
def partialRounds : ℕ → ℕ
  | 2 => 56 | 3 => 57 | 4 => 56 | 5 => 60 | 6 => 60 | 7 => 63 | _ => 0

end Zok.Poseidon
