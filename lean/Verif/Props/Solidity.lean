import Verif.Lemmas.Solidity
import Verif.Props.ProofJson
import Verif.Spec.Curves
import Mathlib.Algebra.Ring.Hom.Defs
import Mathlib.Algebra.Ring.Basic
import Mathlib.Tactic.NormNum.Prime

/-
C72: the Solidity verifier of Groth16 (`zokrates_proof_systems/src/scheme/groth16.rs`, `solidity.rs`), and `verify`.
-/

namespace Zok.Solidity
open Groth Proof
variable {q : ℕ} [Fact q.Prime] {G1 G2 GT : Type} [AddCommGroup G1] [AddCommGroup G2] [AddCommGroup GT] (E : PairingCurve q G1 G2 GT)

theorem coords1_some {P : G1} (h : P ≠ 0) : ∃ x y, E.coords1 P = some (x, y) := by
  cases hP : E.coords1 P with
  | none => exact absurd (E.inj1 (hP.trans E.zero1.symm)) h
  | some c => exact ⟨c.1, c.2, rfl⟩

theorem coords2_some {P : G2} (h : P ≠ 0) : ∃ x0 x1 y0 y1, E.coords2 P = some ((x0, x1), (y0, y1)) := by
  cases hP : E.coords2 P with
  | none => exact absurd (E.inj2 (hP.trans E.zero2.symm)) h
  | some c => exact ⟨c.1.1, c.1.2, c.2.1, c.2.2, rfl⟩

theorem strings1_eq {P : G1} {x y : ZMod q} (h : E.coords1 P = some (x, y)) : strings1 E P = [parseFr x, parseFr y] := by
  unfold strings1
  rw [h]
  exact C71_points_written (⟨[x, y], false⟩ : Point q) (by simp)

theorem strings2_eq {P : G2} {x0 x1 y0 y1 : ZMod q} (h : E.coords2 P = some ((x0, x1), (y0, y1))) :
    strings2 E P = [parseFr x0, parseFr x1, parseFr y0, parseFr y1] := by
  unfold strings2
  rw [h]
  exact C71_points_written (⟨[x0, x1, y0, y1], false⟩ : Point q) (by simp)

theorem numbers1_eq (hq : 8 * Fld.limbs q ≤ 32) {P : G1} (h : P ≠ 0) : numbers1 (strings1 E P) = some (word1 E P) := by
  obtain ⟨x, y, hc⟩ := coords1_some E h
  rw [strings1_eq E hc]
  unfold numbers1 word1
  simp only [C71_solidity, if_pos hq, hc]

theorem numbers2_eq (hq : 8 * Fld.limbs q ≤ 32) {P : G2} (h : P ≠ 0) : numbers2 (strings2 E P) = some (point2 E P) := by
  obtain ⟨x0, x1, y0, y1, hc⟩ := coords2_some E h
  rw [strings2_eq E hc]
  unfold numbers2 point2 word2
  simp only [C71_solidity, if_pos hq, hc]

theorem read1_eq {P : G1} (h : P ≠ 0) : read1 E (strings1 E P) = some P := by
  obtain ⟨x, y, hc⟩ := coords1_some E h
  have ht : toPoint q (strings1 E P) = some ⟨[x, y], false⟩ := by
    unfold strings1
    rw [hc]
    exact C71_points (⟨[x, y], false⟩ : Point q) (by simp)
  have he : ∃ P, E.coords1 P = some (x, y) := ⟨P, hc⟩
  unfold read1
  rw [ht]
  simp only
  rw [dif_pos he, Option.some.injEq]
  exact E.inj1 (he.choose_spec.trans hc.symm)

theorem read2_eq {P : G2} (h : P ≠ 0) : read2 E (strings2 E P) = some P := by
  obtain ⟨x0, x1, y0, y1, hc⟩ := coords2_some E h
  have ht : toPoint q (strings2 E P) = some ⟨[x0, x1, y0, y1], false⟩ := by
    unfold strings2
    rw [hc]
    exact C71_points (⟨[x0, x1, y0, y1], false⟩ : Point q) (by simp)
  have he : ∃ P, E.coords2 P = some ((x0, x1), (y0, y1)) := ⟨P, hc⟩
  unfold read2
  rw [ht]
  simp only
  rw [dif_pos he, Option.some.injEq]
  exact E.inj2 (he.choose_spec.trans hc.symm)

theorem mapM_map {α β γ : Type} (f : β → Option γ) (g : α → β) (k : α → γ) (l : List α) (h : ∀ a ∈ l, f (g a) = some (k a)) :
    (l.map g).mapM f = some (l.map k) := by
  induction l with
  | nil => rfl
  | cons a l ih =>
    rw [List.map_cons, List.mapM_cons, h a (by simp), ih fun b hb => h b (by simp [hb])]
    rfl

/-- No point of the key is the point at infinity. -/
def KeyFinite (vk : Key G1 G2) : Prop :=
  vk.alpha ≠ 0 ∧ vk.beta ≠ 0 ∧ vk.gamma ≠ 0 ∧ vk.delta ≠ 0 ∧ ∀ k ∈ vk.gammaAbc, k ≠ 0

/-- No point of the proof is the point at infinity. -/
def PointsFinite (pf : Points G1 G2) : Prop := pf.a ≠ 0 ∧ pf.b ≠ 0 ∧ pf.c ≠ 0

/-- The exported contract has the points of the key, if field elements have at most 256 bits. -/
theorem C72_export (hq : 8 * Fld.limbs q ≤ 32) (vk : Key G1 G2) (h : KeyFinite vk) :
    exportVerifier (keyStrings E vk) = some (contractOf E vk) := by
  obtain ⟨h1, h2, h3, h4, h5⟩ := h
  unfold exportVerifier keyStrings
  simp only [numbers1_eq E hq h1, numbers2_eq E hq h2, numbers2_eq E hq h3, numbers2_eq E hq h4,
    mapM_map numbers1 (strings1 E) (word1 E) vk.gammaAbc fun a ha => numbers1_eq E hq (h5 a ha), List.length_map]
  rfl

open Classical in
/-- **C72**. `verify` decides whether the proof is valid for the inputs in it; it panics if their number is wrong. -/
theorem C72_verify {r : ℕ} [Fact r.Prime] (vk : Key G1 G2) (pf : Points G1 G2) (xs : List (ZMod r)) (h : KeyFinite vk)
    (hp : PointsFinite pf) :
    verify E r (keyStrings E vk) (pointStrings E pf) (xs.map parseFr) =
      if xs.length + 1 = vk.gammaAbc.length then some (decide (Valid E vk pf (xs.map ZMod.val))) else none := by
  obtain ⟨h1, h2, h3, h4, h5⟩ := h
  obtain ⟨p1, p2, p3⟩ := hp
  have hx : (xs.map parseFr).mapM (readInput r) = some xs := by
    rw [mapM_map (readInput r) parseFr id xs fun x _ => C71_inputs x, List.map_id]
  have hg : (vk.gammaAbc.map (strings1 E)).mapM (read1 E) = some vk.gammaAbc := by
    rw [mapM_map (read1 E) (strings1 E) id vk.gammaAbc fun a ha => read1_eq E (h5 a ha), List.map_id]
  unfold verify keyStrings pointStrings
  simp only [read1_eq E h1, read2_eq E h2, read2_eq E h3, read2_eq E h4, read1_eq E p1, read2_eq E p2, read1_eq E p3, hx, hg]
  unfold arkVerify
  cases hk : vk.gammaAbc with
  | nil => simp
  | cons k ks =>
    simp only [List.length_map, List.length_cons, Nat.add_right_cancel_iff]
    by_cases hl : xs.length = ks.length
    · rw [if_pos hl, if_pos hl, Option.some.injEq, decide_eq_decide]
      have he : ∀ t u v w : GT, t + -u + -v = w ↔ t = w + u + v := by
        intro t u v w
        constructor
        · rintro rfl; abel
        · rintro rfl; abel
      rw [map_neg, map_neg, he]
      constructor
      · intro h
        exact ⟨k, ks, hk, by simp [hl], h⟩
      · rintro ⟨k', ks', hk', -, h⟩
        rw [hk, List.cons.injEq] at hk'
        rw [hk'.1, hk'.2]
        exact h
    · rw [if_neg hl, if_neg hl]

open Classical in
/-- **C72**. A call of the exported contract with a proof and its inputs returns what `verify` returns, and reverts where `verify`
panics. -/
theorem C72_contract {r : ℕ} [Fact r.Prime] (hq : 8 * Fld.limbs q ≤ 32) (hr : 8 * Fld.limbs r ≤ 32) (vk : Key G1 G2)
    (pf : Points G1 G2) (xs : List (ZMod r)) (h : KeyFinite vk) (hp : PointsFinite pf) :
    call E r (keyStrings E vk) (pointStrings E pf) (xs.map parseFr) =
      verify E r (keyStrings E vk) (pointStrings E pf) (xs.map parseFr) := by
  rw [C72_verify E vk pf xs h hp]
  have hx : (xs.map parseFr).mapM encodeElement = some (xs.map ZMod.val) :=
    mapM_map encodeElement parseFr ZMod.val xs fun x _ => by rw [C71_solidity, if_pos hr]
  unfold call
  rw [C72_export E hq vk h, hx]
  obtain ⟨p1, p2, p3⟩ := hp
  unfold pointStrings
  simp only [numbers1_eq E hq p1, numbers2_eq E hq p2, numbers1_eq E hq p3]
  have hlt : ∀ x ∈ xs.map ZMod.val, x < r := by
    intro x hx
    obtain ⟨y, -, rfl⟩ := List.mem_map.1 hx
    exact Fld.val_lt y
  have key : ∀ ok, verifyTx E r (contractOf E vk) (word1 E pf.a) (point2 E pf.b) (word1 E pf.c) (xs.map ZMod.val) = some ok ↔ _ :=
    fun ok => verifyTx_iff E r vk _ _ _ _ ok
  have hD : ∀ C, Denotes E (word1 E pf.c) C → pf.c = C := by
    intro C hC
    have := (negate_iff E _ C).2 hC
    rw [negate_word] at this
    exact (neg_injective (word1_inj E this)).symm
  by_cases hl : xs.length + 1 = vk.gammaAbc.length
  · rw [if_pos hl, key]
    exact ⟨by rw [List.length_map]; exact hl, hlt, pf.a, pf.b, pf.c, rfl, rfl, denotes_word E _, rfl⟩
  · rw [if_neg hl]
    generalize hg : verifyTx E r (contractOf E vk) (word1 E pf.a) (point2 E pf.b) (word1 E pf.c) (xs.map ZMod.val) = o at key
    cases o with
    | none => rfl
    | some ok =>
      have := ((key ok).1 rfl).1
      rw [List.length_map] at this
      exact absurd this hl

/-- **C72**. Whoever calls the contract: it returns true iff the words denote points of the groups (the second coordinate of `C` up to
multiples of `q`), which are a valid proof for the public inputs, which are less than the order `r`. -/
theorem C72_accepts [DecidableEq GT] (r : ℕ) (vk : Key G1 G2) (a : ℕ × ℕ) (b : G2Point) (c : ℕ × ℕ) (xs : List ℕ) :
    verifyTx E r (contractOf E vk) a b c xs = some true ↔ (∀ x ∈ xs, x < r) ∧
      ∃ A B C, word1 E A = a ∧ word2 E B = (b.X1, b.X0, b.Y1, b.Y0) ∧ Denotes E c C ∧ Valid E vk ⟨A, B, C⟩ xs := by
  have h := verifyTx_iff E r vk a b c xs true
  have hd : (fun a b => Classical.propDecidable (a = b)) = (inferInstance : DecidableEq GT) := Subsingleton.elim _ _
  rw [hd] at h
  rw [h]
  constructor
  · rintro ⟨-, hr, A, B, C, hA, hB, hC, hv⟩
    exact ⟨hr, A, B, C, hA, hB, hC, @of_decide_eq_true _ (Classical.propDecidable _) hv.symm⟩
  · rintro ⟨hr, A, B, C, hA, hB, hC, hv⟩
    refine ⟨?_, hr, A, B, C, hA, hB, hC, (@decide_eq_true _ (Classical.propDecidable _) hv).symm⟩
    obtain ⟨k, ks, hk, hl, -⟩ := hv
    rw [hk, List.length_cons, hl]

/-- **C72 (negative)**. Proofs can be altered: adding `q` to the second coordinate of `C` gives another accepted call. -/
theorem C72_malleable [DecidableEq GT] (r : ℕ) (vk : Key G1 G2) (a : ℕ × ℕ) (b : G2Point) (c : ℕ × ℕ) (xs : List ℕ)
    (h : verifyTx E r (contractOf E vk) a b c xs = some true) (hc : c ≠ (0, 0)) :
    verifyTx E r (contractOf E vk) a b (c.1, c.2 + q) xs = some true := by
  rw [C72_accepts] at h ⊢
  obtain ⟨hr, A, B, C, hA, hB, hC, hv⟩ := h
  refine ⟨hr, A, B, C, hA, hB, ?_, hv⟩
  unfold Denotes at hC ⊢
  cases hP : E.coords1 C with
  | none => rw [hP] at hC; exact absurd hC hc
  | some d =>
    rw [hP] at hC
    exact ⟨hC.1, by rw [Nat.add_mod_right]; exact hC.2⟩

/-- **C72**. The constants in the contract fit: numbers of both fields have at most 256 bits, and a second coordinate plus `q` still
fits into a word; the order of the groups is the field of the circuits. -/
theorem C72_constants : 8 * Fld.limbs fieldModulus ≤ 32 ∧ 8 * Fld.limbs snarkScalarField ≤ 32 ∧ 2 * fieldModulus < 2 ^ 256 ∧
    snarkScalarField = Bn128 := by
  refine ⟨by decide +kernel, by decide +kernel, by decide +kernel, rfl⟩

/-- A small pairing: groups of order 3, coordinates in the field of 7 elements. -/
def toy : PairingCurve 7 (ZMod 3) (ZMod 3) (ZMod 3) where
  coords1 P := if P = 0 then none else if P = 1 then some (1, 1) else some (1, 6)
  coords2 P := if P = 0 then none else if P = 1 then some ((0, 1), (2, 1)) else some ((0, 1), (5, 6))
  pair := AddMonoidHom.mul
  inj1 := by unfold Function.Injective; decide +kernel
  inj2 := by unfold Function.Injective; decide +kernel
  zero1 := by decide +kernel
  zero2 := by decide +kernel
  neg1 := by decide +kernel
  y1 := by decide +kernel
  origin2 := by decide +kernel

/-- A key with one public input, and a proof. -/
def toyKey : Key (ZMod 3) (ZMod 3) := ⟨1, 1, 2, 1, [1, 1]⟩
def toyProof : Points (ZMod 3) (ZMod 3) := ⟨2, 1, 1⟩

theorem toy_valid (x : ℕ) : Valid toy toyKey toyProof [x] ↔ (x : ZMod 3) = 2 := by
  have h : ∀ x : ZMod 3, (2 : ZMod 3) * 1 = 1 * 1 + (1 + (x + 0)) * 2 + 1 * 1 ↔ x = 2 := by decide +kernel
  rw [← h]
  constructor
  · rintro ⟨k, ks, hk, hl, he⟩
    simp only [toyKey, List.cons.injEq] at hk
    rw [← hk.1, ← hk.2] at he
    simpa [msm, toy, toyKey, toyProof] using he
  · intro he
    exact ⟨1, [1], rfl, rfl, by simpa [msm, toy, toyKey, toyProof] using he⟩

instance : Fact (Nat.Prime 7) := ⟨by norm_num⟩
instance : Fact (Nat.Prime 3) := ⟨by norm_num⟩

/-- The hypotheses are met: with the public input 2 the contract returns true, as `verify`; with 1 it returns false; with 5, which is
2 modulo 3, it reverts. -/
example : call toy 3 (keyStrings toy toyKey) (pointStrings toy toyProof) [parseFr (2 : ZMod 3)] = some true ∧
    call toy 3 (keyStrings toy toyKey) (pointStrings toy toyProof) [parseFr (1 : ZMod 3)] = some false ∧
    verifyTx toy 3 (contractOf toy toyKey) (1, 6) ⟨0, 1, 2, 1⟩ (1, 1) [2] = some true ∧
    verifyTx toy 3 (contractOf toy toyKey) (1, 6) ⟨0, 1, 2, 1⟩ (1, 8) [2] = some true ∧
    verifyTx toy 3 (contractOf toy toyKey) (1, 6) ⟨0, 1, 2, 1⟩ (1, 1) [5] ≠ some true := by
  have hq : 8 * Fld.limbs 7 ≤ 32 := by decide +kernel
  have hr : 8 * Fld.limbs 3 ≤ 32 := by decide +kernel
  have hk : KeyFinite toyKey := by unfold KeyFinite; decide +kernel
  have hp : PointsFinite toyProof := by unfold PointsFinite; decide +kernel
  have e1 := C72_contract toy hq hr toyKey toyProof [(2 : ZMod 3)] hk hp
  have e2 := C72_contract toy hq hr toyKey toyProof [(1 : ZMod 3)] hk hp
  rw [C72_verify toy toyKey toyProof _ hk hp, if_pos (by rfl)] at e1 e2
  have hd : (fun a b => Classical.propDecidable (a = b)) = (inferInstance : DecidableEq (ZMod 3)) := Subsingleton.elim _ _
  rw [hd] at e1 e2
  have a : verifyTx toy 3 (contractOf toy toyKey) (1, 6) ⟨0, 1, 2, 1⟩ (1, 1) [2] = some true :=
    (C72_accepts toy 3 toyKey _ _ _ _).2 ⟨by decide, 2, 1, 1, by decide +kernel, by decide +kernel, by
      show Denotes toy (1, 1) 1
      exact denotes_word toy 1, (toy_valid 2).2 rfl⟩
  refine ⟨?_, ?_, a, C72_malleable toy 3 toyKey _ _ _ _ a (by decide), ?_⟩
  · exact e1.trans (congrArg some (@decide_eq_true _ (Classical.propDecidable _) ((toy_valid 2).2 rfl)))
  · refine e2.trans (congrArg some (@decide_eq_false _ (Classical.propDecidable _) fun h => ?_))
    exact absurd ((toy_valid 1).1 h) (by decide +kernel)
  · intro h
    have := ((C72_accepts toy 3 toyKey _ _ _ _).1 h).1 5 (by simp)
    omega

end Zok.Solidity
