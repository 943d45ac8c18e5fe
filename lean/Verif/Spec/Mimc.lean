import Mathlib.Algebra.Ring.Defs
import Mathlib.Logic.Function.Iterate

/-
Specification of MiMC (https://eprint.iacr.org/2016/492): the block cipher with the exponent 7, the Feistel network with the exponent 5, and the sponge over it, for any round constants.
-/

namespace Zok.Mimc
variable {F : Type} [CommRing F]

/-- `n` rounds of the cipher: the key and the constant of the round are added, then the seventh power is taken. -/
def rounds7 (c : ℕ → F) (k x : F) : ℕ → F
  | 0 => x
  | n + 1 => (rounds7 c k x n + k + c n) ^ 7

/-- The cipher with `R` rounds: the key is added after the last round. -/
def cipher7 (c : ℕ → F) (R : ℕ) (k x : F) : F := rounds7 c k x R + k

/-- `n` rounds of the Feistel network, with the fifth power. -/
def feistel (c : ℕ → F) (k : F) (s : F × F) : ℕ → F × F
  | 0 => s
  | n + 1 => ((feistel c k s n).2 + (k + (feistel c k s n).1 + c n) ^ 5, (feistel c k s n).1)

/-- The cipher with `R` rounds: the last round does not swap the halves. -/
def cipherF (c : ℕ → F) (R : ℕ) (k : F) (s : F × F) : F × F :=
  ((feistel c k s (R - 1)).1, (feistel c k s (R - 1)).2 + (k + (feistel c k s (R - 1)).1 + c (R - 1)) ^ 5)

/-- The state of the sponge after the inputs. -/
def absorb (c : ℕ → F) (R : ℕ) (k : F) (ins : List F) : F × F := ins.foldl (fun s x => cipherF c R k (s.1 + x, s.2)) (0, 0)

/-- The outputs: the left half after 0, 1, 2, ... more applications. -/
def sponge (c : ℕ → F) (R : ℕ) (k : F) (ins : List F) (n : ℕ) : List F := (List.range n).map fun i => ((cipherF c R k)^[i] (absorb c R k ins)).1

end Zok.Mimc
