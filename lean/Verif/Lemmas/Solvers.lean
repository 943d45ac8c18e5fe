import Verif.Lemmas.Field
import Verif.Model.Interp

set_option linter.unusedSectionVars false

namespace Zok
open Fld
variable {p : ℕ} [Fact p.Prime] {Z : Type _} (sem : SolverSem (ZMod p) Z) (solvers : List (Solver Z))

theorem solver_bits_value (x : ZMod p) (n : ℕ) :
    (let bs := toBitsBe x
     let bs := bs.drop (bs.length - n)
     List.replicate (n - bs.length) false ++ bs) = bitsBE n x.val := by
  simp only [toBitsBe_eq, length_bitsBE, drop_bitsBE]
  have hlt : x.val < 2 ^ requiredBits p := lt_trans (val_lt x) lt_two_pow_required
  by_cases h : n ≤ requiredBits p
  · have e : requiredBits p - (requiredBits p - n) = n := by omega
    rw [e]; simp
  · have e : requiredBits p - (requiredBits p - n) = requiredBits p := by omega
    rw [e, ← bitsBE_pad hlt (by omega)]

theorem run_bits (x : ZMod p) (n : ℕ) :
    executeSolver sem (.bits n) [x] solvers = .ok ((bitsBE n x.val).map boolF) := by
  have h := solver_bits_value x n
  simp only at h
  unfold executeSolver solverBody
  simp only [Solver.signature]
  rw [h]
  simp

theorem run_conditionEq (x : ZMod p) :
    executeSolver sem .conditionEq [x] solvers = .ok (if x = 0 then [0, 1] else [1, x⁻¹]) := by
  by_cases h : x = 0
  · simp [executeSolver, solverBody, Solver.signature, h]
  · simp [executeSolver, solverBody, Solver.signature, h, checkedDiv]

theorem run_xor (x y : ZMod p) : executeSolver sem .xor [x, y] solvers = .ok [x + y - 2 * x * y] := by
  simp [executeSolver, solverBody, Solver.signature]

theorem run_or (x y : ZMod p) : executeSolver sem .or [x, y] solvers = .ok [x + y - x * y] := by
  simp [executeSolver, solverBody, Solver.signature]

theorem run_maj (a b c : ZMod p) : executeSolver sem .shaAndXorAndXorAnd [a, b, c] solvers =
    .ok [b * c - (2 * b * c - b - c) * a] := by
  simp [executeSolver, solverBody, Solver.signature]

theorem run_ch (a b c : ZMod p) : executeSolver sem .shaCh [a, b, c] solvers = .ok [a * (b - c) + c] := by
  simp [executeSolver, solverBody, Solver.signature]

theorem run_div (x y : ZMod p) : executeSolver sem .div [x, y] solvers = .ok [if y = 0 then 1 else x / y] := by
  by_cases h : y = 0
  · simp [executeSolver, solverBody, Solver.signature, h, checkedDiv]
  · simp [executeSolver, solverBody, Solver.signature, h, checkedDiv, div_eq_mul_inv]

theorem run_euclideanDiv (x y : ZMod p) : executeSolver sem .euclideanDiv [x, y] solvers =
    .ok [((x.val / y.val : ℕ) : ZMod p), ((x.val % y.val : ℕ) : ZMod p)] := by
  have hx := val_lt x
  have hq : (if y.val = 0 then 0 else x.val / y.val) = x.val / y.val := by
    split
    · rename_i h; rw [h, Nat.div_zero]
    · rfl
  have hr : x.val - y.val * (x.val / y.val) = x.val % y.val := by
    have := Nat.div_add_mod x.val y.val; omega
  have h1 : x.val / y.val < p := lt_of_le_of_lt (Nat.div_le_self _ _) hx
  have h2 : x.val % y.val < p := lt_of_le_of_lt (Nat.mod_le _ _) hx
  simp only [executeSolver, solverBody, Solver.signature, List.length_cons, List.length_nil, hq, hr,
    tryFromBiguint_eq, h1, h2, if_true]
  simp

end Zok
