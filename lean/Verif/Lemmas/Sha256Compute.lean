import Verif.Spec.Sha256
import Mathlib.Data.List.Basic
import Mathlib.Data.List.GetD
import Mathlib.Tactic.Common
import Mathlib.Algebra.Ring.Nat

/-
SHA-256 without recomputation of the message schedule, for the evaluation of test vectors by the kernel.
-/

namespace Zok.Sha256

/-- `n` more words of the message schedule, in reverse order. -/
def ext : ℕ → List Word → List Word
  | 0, ws => ws
  | n + 1, ws => ext n ((sigma1 (ws.getD 1 0) + ws.getD 6 0 + sigma0 (ws.getD 14 0) + ws.getD 15 0) :: ws)

/-- A step with given constants. -/
def stepKW (s : State) (kw : Word × Word) : State :=
  let T1 := s.h + Sigma1 s.e + Ch s.e s.f s.g + kw.1 + kw.2
  let T2 := Sigma0 s.a + Maj s.a s.b s.c
  { h := s.g, g := s.f, f := s.e, e := s.d + T1, d := s.c, c := s.b, b := s.a, a := T1 + T2 }

/-- The compression function. -/
def fast (H M : List Word) : List Word :=
  List.zipWith (· + ·) ((List.zip ((List.range 64).map K) (ext 48 M.reverse).reverse).foldl stepKW (State.ofList H)).toList H

attribute [local irreducible] K H0 sigma0 sigma1 fast compress

theorem steps_foldl (M : List Word) (s : State) (n : ℕ) : steps M s n = ((List.range n).map fun t => (K t, W M t)).foldl stepKW s := by
  induction n with
  | zero => rfl
  | succ n ih => rw [steps, ih, List.range_succ, List.map_append, List.foldl_append]; rfl

theorem getD_reverse (M : List Word) {t k : ℕ} (h : k < t) : ((List.range t).map (W M)).reverse.getD k 0 = W M (t - 1 - k) := by
  rw [List.getD_eq_getElem _ _ (by simpa using h)]
  simp

theorem ext_W (M : List Word) : ∀ n t, 16 ≤ t → ext n ((List.range t).map (W M)).reverse = ((List.range (t + n)).map (W M)).reverse
  | 0, t, _ => rfl
  | n + 1, t, h => by
    have hW : sigma1 (W M (t - 1 - 1)) + W M (t - 1 - 6) + sigma0 (W M (t - 1 - 14)) + W M (t - 1 - 15) = W M t := by
      have e1 : t - 1 - 1 = t - 2 := by omega
      have e2 : t - 1 - 6 = t - 7 := by omega
      have e3 : t - 1 - 14 = t - 15 := by omega
      have e4 : t - 1 - 15 = t - 16 := by omega
      conv_rhs => rw [W, if_neg (by omega)]
      rw [e1, e2, e3, e4]
    rw [ext, getD_reverse M (by omega), getD_reverse M (by omega), getD_reverse M (by omega), getD_reverse M (by omega), hW, show t + (n + 1) = (t + 1) + n by omega, ← ext_W M n (t + 1) (by omega),
      List.range_succ, List.map_append, List.reverse_append]
    rfl

theorem sched_fast {M : List Word} (h : M.length = 16) : (ext 48 M.reverse).reverse = (List.range 64).map (W M) := by
  have h1 : (List.range 16).map (W M) = M := by
    refine List.ext_getElem (by rw [List.length_map, List.length_range, h]) fun i h1 h2 => ?_
    rw [List.getElem_map, List.getElem_range, W, if_pos (by omega), List.getD_eq_getElem _ _ h2]
  have h2 := ext_W M 48 16 le_rfl
  rw [h1] at h2
  rw [h2, List.reverse_reverse]

theorem zip_map_range {α : Type*} (f g : ℕ → α) (n : ℕ) : List.zip ((List.range n).map f) ((List.range n).map g) = (List.range n).map fun t => (f t, g t) := List.zip_map' ..

theorem fast_eq {H M : List Word} (h : M.length = 16) : compress H M = fast H M := by
  rw [compress, fast, steps_foldl, sched_fast h, zip_map_range]

/-- All blocks. -/
theorem blocks_fast {Ms : List (List Word)} (h : ∀ M ∈ Ms, M.length = 16) : blocks Ms = Ms.foldl fast H0 :=
  List.foldl_ext _ _ H0 fun _ M hM => fast_eq (h M hM)

end Zok.Sha256
