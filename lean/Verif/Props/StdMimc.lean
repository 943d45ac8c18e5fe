import Verif.Lemmas.StdMimc
import Verif.Lemmas.StdAll
import Verif.Spec.Curves
import Mathlib.GroupTheory.OrderOfElement

/-
C65: MiMC in the standard library (`zokrates_stdlib/stdlib/hashes/mimc7`, `hashes/mimcSponge`). The specification is in `Spec/Mimc.lean`; the round constants are those of the code (`tools/check_constants.py` compares them with iterated Keccak).
-/

namespace Zok.Typed.Std
open Abi Mimc
variable {p : ℕ} {Z : Type} [Fact p.Prime] {O : Oracle p Z} {P : Program (ZMod p)}

/-- C65: `mimc7` is the cipher with the seventh power, for all numbers of rounds for which there are constants. -/
theorem C65_mimc7 {R : ℕ} (h1 : 1 ≤ R) (h2 : R ≤ 91) (x k : ZMod p) : CallsTo O P (mimc7 R) [.field x, .field k] (.ok (.field (cipher7 (c7 p) R k x))) := mimc7_spec h1 h2 x k

/-- C65: `mimcFeistel` is the Feistel network with 220 rounds. -/
theorem C65_feistel (xl xr k : ZMod p) :
    CallsTo O P mimcFeistel [.field xl, .field xr, .field k] (.ok (.array [.field (cipherF (cF p) 220 k (xl, xr)).1, .field (cipherF (cF p) 220 k (xl, xr)).2])) := mimcFeistel_spec xl xr k

/-- C65: `mimcSponge` is the sponge over the Feistel network, for all positive numbers of inputs and of outputs. -/
theorem C65_sponge (hP : Imports P mimc) (ins : List (ZMod p)) (h1 : ins ≠ []) {n : ℕ} (h2 : 1 ≤ n) (h3 : ins.length + n < 2 ^ 32) (k : ZMod p) :
    CallsTo O P (mimcSponge ins.length n) [.array (ins.map AVal.field), .field k] (.ok (.array ((sponge (cF p) 220 k ins n).map AVal.field))) :=
  mimcSponge_spec hP rfl (List.length_pos_iff.2 h1) h2 h3 k

theorem pow_injective_of_coprime {e : ℕ} (h : Nat.Coprime e (p - 1)) (he : e ≠ 0) : Function.Injective fun x : ZMod p => x ^ e := by
  intro x y hxy
  have hxy : x ^ e = y ^ e := hxy
  by_cases hx : x = 0
  · subst hx
    rw [zero_pow he] at hxy
    exact (pow_eq_zero_iff he).1 hxy.symm |>.symm
  have hy : y ≠ 0 := by
    rintro rfl
    rw [zero_pow he] at hxy
    exact hx ((pow_eq_zero_iff he).1 hxy)
  have h1 : (x / y) ^ e = 1 := by rw [div_pow, hxy, div_self (pow_ne_zero _ hy)]
  have h2 : (x / y) ^ (p - 1) = 1 := ZMod.pow_card_sub_one_eq_one (div_ne_zero hx hy)
  have h3 : orderOf (x / y) ∣ 1 := by
    rw [← h]
    exact Nat.dvd_gcd (orderOf_dvd_of_pow_eq_one h1) (orderOf_dvd_of_pow_eq_one h2)
  have h4 : x / y = 1 := by rw [← orderOf_eq_one_iff]; exact Nat.dvd_one.1 h3
  rwa [div_eq_one_iff_eq hy] at h4

theorem cipher7_injective (h : Nat.Coprime 7 (p - 1)) (c : ℕ → ZMod p) (R : ℕ) (k : ZMod p) : Function.Injective (cipher7 c R k) := by
  have : Function.Injective fun x => rounds7 c k x R := by
    induction R with
    | zero => exact fun _ _ h => h
    | succ n ih =>
      intro x y hxy
      have := pow_injective_of_coprime h (by omega) (show (rounds7 c k x n + k + c n) ^ 7 = (rounds7 c k y n + k + c n) ^ 7 from hxy)
      exact ih (by simpa using this)
  intro x y hxy
  exact this (by simpa [cipher7] using hxy)

theorem feistel_injective {F : Type} [CommRing F] (c : ℕ → F) (k : F) (n : ℕ) : Function.Injective fun s => feistel c k s n := by
  induction n with
  | zero => exact fun _ _ h => h
  | succ n ih =>
    intro s t h
    simp only [feistel, Prod.mk.injEq] at h
    refine ih (Prod.ext h.2 ?_)
    rw [h.2] at h
    exact add_right_cancel h.1

theorem cipherF_injective {F : Type} [CommRing F] (c : ℕ → F) (R : ℕ) (k : F) : Function.Injective (cipherF c R k) := by
  intro s t h
  simp only [cipherF, Prod.mk.injEq] at h
  refine feistel_injective c k (R - 1) (Prod.ext h.1 ?_)
  rw [h.1] at h
  exact add_right_cancel h.2

/-- C65: for every key, `mimc7` has different results on different inputs, if 7 does not divide `p - 1`, as for Bn128. -/
theorem C65_mimc7_injective (h : Nat.Coprime 7 (p - 1)) {R : ℕ} (h1 : 1 ≤ R) (h2 : R ≤ 91) {x y k : ZMod p} {r : AVal (ZMod p)} (hx : Calls O P (mimc7 R) [.field x, .field k] (.ok r)) (hy : Calls O P (mimc7 R) [.field y, .field k] (.ok r)) : x = y := by
  have e1 := (mimc7_spec h1 h2 x k _).1 hx
  have e2 := (mimc7_spec h1 h2 y k _).1 hy
  rw [e1] at e2
  exact cipher7_injective h _ R k (by simpa using e2)

/-- C65: for every key, `mimcFeistel` has different results on different inputs, over every field. -/
theorem C65_feistel_injective {xl xr yl yr k : ZMod p} {r : AVal (ZMod p)} (hx : Calls O P mimcFeistel [.field xl, .field xr, .field k] (.ok r)) (hy : Calls O P mimcFeistel [.field yl, .field yr, .field k] (.ok r)) : xl = yl ∧ xr = yr := by
  have e1 := (mimcFeistel_spec xl xr k _).1 hx
  have e2 := (mimcFeistel_spec yl yr k _).1 hy
  rw [e1] at e2
  have h : pairF (cipherF (cF p) 220 k (xl, xr)) = pairF (cipherF (cF p) 220 k (yl, yr)) := Except.ok.inj e2
  simp only [pairF, AVal.array.injEq, List.cons.injEq, AVal.field.injEq, and_true] at h
  have := cipherF_injective (cF p) 220 k (Prod.ext h.1 h.2)
  simpa using this

/-! ### Examples -/

/-- The rounds on natural numbers. -/
def rounds7N (q : ℕ) (cs : List ℕ) (k x : ℕ) : ℕ := cs.foldl (fun x c => ((x + k + c) ^ 7) % q) x

theorem rounds7N_cast (q : ℕ) (c : ℕ → ZMod q) (k x : ℕ) : ∀ (cs : List ℕ), (∀ i (h : i < cs.length), c i = (cs[i] : ZMod q)) → ((rounds7N q cs k x : ℕ) : ZMod q) = rounds7 c k x cs.length := by
  intro cs
  induction cs using List.reverseRecOn with
  | nil => intro _; simp [rounds7N, rounds7]
  | append_singleton cs d ih =>
    intro h
    have ih := ih fun i hi => by
      rw [h i (by simp; omega), List.getElem_append_left hi]
    have hd := h cs.length (by simp)
    rw [rounds7N] at ih
    rw [rounds7N, List.foldl_append, List.length_append, List.length_singleton, rounds7, ← ih, hd]
    simp

theorem getD_take {q : ℕ} (cs : List ℕ) (n : ℕ) : ∀ i (h : i < (cs.take n).length), ((cs.getD i 0 : ℕ) : ZMod q) = ((cs.take n)[i] : ZMod q) := by
  intro i h
  rw [List.getElem_take, List.getD_eq_getElem]

/-- A test of the repository, `zokrates_stdlib/tests/tests/hashes/mimc7/mimc7.zok`. -/
theorem mimc7_100 : cipher7 (c7 Bn128) 90 0 100 = 1010054095264022068840870550831559811104631937745987065544478027572003292636 := by
  have h := rounds7N_cast Bn128 (c7 Bn128) 0 100 (mimc7C.take 90) (getD_take mimc7C 90)
  rw [show (mimc7C.take 90).length = 90 by decide +kernel, show rounds7N Bn128 (mimc7C.take 90) 0 100 = 1010054095264022068840870550831559811104631937745987065544478027572003292636 by decide +kernel] at h
  rw [cipher7, add_zero]
  exact_mod_cast h.symm

example : CallsTo (Oracle.any Bn128 Unit) stdlib (mimc7 90) [.field 100, .field 0] (.ok (.field 1010054095264022068840870550831559811104631937745987065544478027572003292636)) := by
  rw [← mimc7_100]
  exact C65_mimc7 (by decide) (by decide) 100 0

example : Nat.Coprime 7 (Bn128 - 1) := by decide +kernel

end Zok.Typed.Std
