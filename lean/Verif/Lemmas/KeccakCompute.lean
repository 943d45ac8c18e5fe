import Verif.Spec.Keccak
import Mathlib.Data.List.Basic
import Mathlib.Data.List.GetD
import Mathlib.Tactic.Common
import Mathlib.Tactic.IntervalCases

/-
Keccak with states as lists, for the evaluation of test vectors by the kernel.
-/

namespace Zok.Keccak

def ofList (l : List Lane) : State := fun x y => l.getD (x + 5 * y) 0
def toList (A : State) : List Lane := (List.range 25).map fun k => A (Fin.ofNat 5 k) (Fin.ofNat 5 (k / 5))

theorem ofList_toList (A : State) : ofList (toList A) = A := by
  funext x y
  have h : (x : ℕ) + 5 * y < 25 := by omega
  rw [ofList, toList, List.getD_eq_getElem _ _ (by simpa using h)]
  simp only [List.getElem_map, List.getElem_range]
  congr 1
  · exact Fin.ext (by simp [Fin.ofNat])
  · exact Fin.ext (by simp [Fin.ofNat]; omega)

def roundsL (l : List Lane) : ℕ → List Lane
  | 0 => l
  | n + 1 => toList (round n (ofList (roundsL l n)))

theorem rounds_fast (A : State) (n : ℕ) : rounds A n = ofList (roundsL (toList A) n) := by
  induction n with
  | zero => rw [rounds, roundsL, ofList_toList]
  | succ n ih => rw [rounds, roundsL, ofList_toList, ih]

def permuteL (s : List Byte) : List Byte := toBytes (ofList (roundsL (toList (ofBytes s)) 24))
theorem permute_fast (s : List Byte) : permute s = permuteL s := by rw [permute, permuteL, keccakF, rounds_fast]

def absorbL (R : ℕ) (P : List Byte) : ℕ → List Byte
  | 0 => List.replicate 200 0
  | n + 1 => permuteL (xorBlock (absorbL R P n) ((P.drop (n * R)).take R))
theorem absorb_fast (R : ℕ) (P : List Byte) (n : ℕ) : absorb R P n = absorbL R P n := by
  induction n with
  | zero => rfl
  | succ n ih => rw [absorb, absorbL, ih, permute_fast]

end Zok.Keccak
