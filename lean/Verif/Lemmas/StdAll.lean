import Verif.Model.StdAll

/-
The library contains its parts.
-/

namespace Zok.Typed.Std
open Abi
variable {p : ℕ}

theorem utils_key {key : ℕ} {ns : List ℕ} {ts : List CType} {t : CType} {c : Callee (ZMod p)} (h : utils key ns ts t = some c) : key < 20 := by
  unfold utils at h
  split at h <;> first | omega | cases h
theorem ecc_key {key : ℕ} {ns : List ℕ} {ts : List CType} {t : CType} {c : Callee (ZMod p)} (h : ecc key ns ts t = some c) : 20 ≤ key ∧ key < 30 := by
  unfold ecc at h
  split at h <;> first | omega | cases h
theorem sha_key {key : ℕ} {ns : List ℕ} {ts : List CType} {t : CType} {c : Callee (ZMod p)} (h : sha key ns ts t = some c) : 30 ≤ key ∧ key < 50 := by
  unfold sha at h
  split at h <;> first | omega | cases h
theorem signatures_key {key : ℕ} {ns : List ℕ} {ts : List CType} {t : CType} {c : Callee (ZMod p)} (h : signatures key ns ts t = some c) : 50 ≤ key ∧ key < 60 := by
  unfold signatures at h
  split at h <;> first | omega | cases h
theorem sha3_key {key : ℕ} {ns : List ℕ} {ts : List CType} {t : CType} {c : Callee (ZMod p)} (h : sha3 key ns ts t = some c) : 60 ≤ key ∧ key < 70 := by
  unfold sha3 at h
  split at h <;> first | omega | cases h

theorem blake2_key {key : ℕ} {ns : List ℕ} {ts : List CType} {t : CType} {c : Callee (ZMod p)} (h : blake2 key ns ts t = some c) : 70 ≤ key ∧ key < 80 := by
  unfold blake2 at h
  split at h <;> first | omega | cases h

theorem mimc_key {key : ℕ} {ns : List ℕ} {ts : List CType} {t : CType} {c : Callee (ZMod p)} (h : mimc key ns ts t = some c) : 80 ≤ key ∧ key < 90 := by
  unfold mimc at h
  split at h <;> first | omega | cases h

theorem poseidon_key {key : ℕ} {ns : List ℕ} {ts : List CType} {t : CType} {c : Callee (ZMod p)} (h : poseidonLib key ns ts t = some c) : 90 ≤ key ∧ key < 100 := by
  unfold poseidonLib at h
  split at h <;> first | omega | cases h

theorem pedersen_key {key : ℕ} {ns : List ℕ} {ts : List CType} {t : CType} {c : Callee (ZMod p)} (h : pedersenLib key ns ts t = some c) : 100 ≤ key := by
  unfold pedersenLib at h
  split at h <;> first | omega | cases h

theorem imports_stdlib_utils : Imports (stdlib (p := p)) utils := by
  intro key ns ts t c h
  have := utils_key h
  simpa [stdlib, this] using h

theorem imports_ecc : Imports (stdlib (p := p)) ecc := by
  intro key ns ts t c h
  have := ecc_key h
  simpa [stdlib, this, this.1.not_gt] using h

theorem imports_sha : Imports (stdlib (p := p)) sha := by
  intro key ns ts t c h
  have := sha_key h
  rw [stdlib, if_neg (by omega), if_neg (by omega), if_pos (by omega)]
  exact h

theorem imports_signatures : Imports (stdlib (p := p)) signatures := by
  intro key ns ts t c h
  have := signatures_key h
  rw [stdlib, if_neg (by omega), if_neg (by omega), if_neg (by omega), if_pos (by omega)]
  exact h

theorem imports_sha3 : Imports (stdlib (p := p)) sha3 := by
  intro key ns ts t c h
  have := sha3_key h
  rw [stdlib, if_neg (by omega), if_neg (by omega), if_neg (by omega), if_neg (by omega), if_pos (by omega)]
  exact h

theorem imports_blake2 : Imports (stdlib (p := p)) blake2 := by
  intro key ns ts t c h
  have := blake2_key h
  rw [stdlib, if_neg (by omega), if_neg (by omega), if_neg (by omega), if_neg (by omega), if_neg (by omega), if_pos (by omega)]
  exact h

theorem imports_mimc : Imports (stdlib (p := p)) mimc := by
  intro key ns ts t c h
  have := mimc_key h
  rw [stdlib, if_neg (by omega), if_neg (by omega), if_neg (by omega), if_neg (by omega), if_neg (by omega), if_neg (by omega), if_pos (by omega)]
  exact h

theorem imports_poseidon : Imports (stdlib (p := p)) poseidonLib := by
  intro key ns ts t c h
  have := poseidon_key h
  rw [stdlib, if_neg (by omega), if_neg (by omega), if_neg (by omega), if_neg (by omega), if_neg (by omega), if_neg (by omega), if_neg (by omega), if_pos (by omega)]
  exact h

theorem imports_pedersen : Imports (stdlib (p := p)) pedersenLib := by
  intro key ns ts t c h
  have := pedersen_key h
  rw [stdlib, if_neg (by omega), if_neg (by omega), if_neg (by omega), if_neg (by omega), if_neg (by omega), if_neg (by omega), if_neg (by omega), if_neg (by omega)]
  exact h

end Zok.Typed.Std
