import Verif.Lemmas.PoseidonCompute
import Verif.Lemmas.StdAll
import Verif.Props.StdMimc

/-
C66: Poseidon in the standard library (`zokrates_stdlib/stdlib/hashes/poseidon`). The specification is in `Spec/Poseidon.lean`; the constants and matrices are those of the code (`tools/check_constants.py` compares them with the output of the reference generator).
-/

namespace Zok.Typed.Std
open Abi Poseidon
variable {p : ℕ} {Z : Type} [Fact p.Prime] {O : Oracle p Z} {P : Program (ZMod p)}

/-- C66: `poseidon` on 1 to 6 elements is the hash of the specification. -/
theorem C66_poseidon (hP : Imports P poseidonLib) {N : ℕ} (h1 : 1 ≤ N) (h6 : N ≤ 6) (x : Fin N → ZMod p) :
    CallsTo O P (poseidon N) [.array ((List.ofFn x).map AVal.field)] (.ok (.field (Poseidon.hash (pMat p (N + 1)) (pC p (N + 1)) (partialRounds (N + 1)) x))) := by
  have := poseidon_spec (O := O) hP h1 h6 x
  rw [fieldsF_eq] at this
  rw [show List.ofFn x = (List.range N).map (stF x) from List.ext_getElem (by simp) fun k hk _ => by
    rw [List.getElem_ofFn, List.getElem_map, List.getElem_range, stF, dif_pos]]
  exact this

/-- C66: on no element and on more than 6 elements, an assertion fails. -/
theorem C66_size {N : ℕ} (h : N = 0 ∨ 6 < N) (hN : N < 2 ^ 32) (x : Fin N → ZMod p) : CallsTo O P (poseidon N) [.array ((List.ofFn x).map AVal.field)] (.error .assertionFailed) :=
  poseidon_size h hN _

/-- With an invertible matrix, and if 5 does not divide `p - 1`, the permutation is a bijection. -/
theorem permute_bijective {t : ℕ} (h : Nat.Coprime 5 (p - 1)) (M M' : Matrix (Fin t) (Fin t) (ZMod p)) (hM : M' * M = 1) (c : ℕ → ZMod p) (rp : ℕ) : Function.Bijective (permute M c rp) := by
  have hi : ∀ n, Function.Injective fun s => rounds M c rp s n := by
    intro n
    induction n with
    | zero => exact fun s t h => h
    | succ n ih =>
      intro s s' e
      refine ih (funext fun i => ?_)
      simp only [rounds, Poseidon.round] at e
      have e := congrArg (M'.mulVec) e
      rw [Matrix.mulVec_mulVec, Matrix.mulVec_mulVec, hM, Matrix.one_mulVec, Matrix.one_mulVec] at e
      have e := congrFun e i
      beta_reduce at e
      split at e
      · exact add_right_cancel (pow_injective_of_coprime h (by decide) e)
      · exact add_right_cancel e
  exact Finite.injective_iff_bijective.1 (hi _)

theorem coprime5 : Nat.Coprime 5 (Bn128 - 1) := by decide +kernel

/-- C66: over the field of Bn128 the permutations of the code are bijections. -/
theorem C66_bijective {N : ℕ} (h1 : 1 ≤ N) (h6 : N ≤ 6) : Function.Bijective (permute (pMat Bn128 (N + 1)) (pC Bn128 (N + 1)) (partialRounds (N + 1))) :=
  permute_bijective coprime5 _ _ (pMat_inv (N + 1) (by omega) (by omega)) _ _

/-! ### Examples -/

/-- A test of the repository, `zokrates_stdlib/tests/tests/hashes/poseidon/poseidon_2.json`. -/
theorem poseidon_1_2 : Poseidon.hash (pMat Bn128 3) (pC Bn128 3) 57 ![1, 2] = 7853200120776062878684798364095072458815029376092732009249414926327459813530 := by
  have h := roundsN_repr (q := Bn128) (t := 3) (rp := 57) (M := (poseidonM3.take 3).map (List.take 3)) (c := poseidonC3) (s := [0, 1, 2]) (M' := pMat Bn128 3) (c' := pC Bn128 3) (s' := Fin.cons 0 ![1, 2]) rfl
    (by decide +kernel) (by
      intro i j
      show _ = (((poseidonM3.getD i []).getD j 0 : ℕ) : ZMod Bn128)
      congr 1
      revert i j
      decide +kernel)
    (fun i hi => by
      show _ = (((poseidonC3 ++ List.replicate 302 0).getD i 0 : ℕ) : ZMod Bn128)
      rw [List.getD_append _ _ _ _ hi])
    ⟨rfl, fun i hi => by
      obtain rfl | rfl | rfl : i = 0 ∨ i = 1 ∨ i = 2 := by omega
      all_goals simp [Fin.cons]
      all_goals rfl⟩ 65 (by decide +kernel)
  have h := h.2 0 (by omega)
  rw [show (roundsN Bn128 ((poseidonM3.take 3).map (List.take 3)) poseidonC3 3 57 [0, 1, 2] 65).getD 0 0 = 7853200120776062878684798364095072458815029376092732009249414926327459813530 by decide +kernel] at h
  rw [Poseidon.hash, permute]
  exact_mod_cast h.symm

example : CallsTo (Oracle.any Bn128 Unit) stdlib (poseidon 2) [.array [.field 1, .field 2]] (.ok (.field 7853200120776062878684798364095072458815029376092732009249414926327459813530)) := by
  rw [← poseidon_1_2]
  exact C66_poseidon imports_poseidon (by decide) (by decide) ![1, 2]

example : CallsTo (Oracle.any Bn128 Unit) stdlib (poseidon 7) [.array ((List.ofFn fun _ : Fin 7 => 0).map AVal.field)] (.error .assertionFailed) := C66_size (by decide) (by decide) _

end Zok.Typed.Std
