import Verif.Model.SolidityGm17
import Verif.Props.Solidity

/-
C72 for GM17.
-/

namespace Zok.Solidity
open Groth
variable {q : ℕ} [Fact q.Prime] {G1 G2 GT : Type} [AddCommGroup G1] [AddCommGroup G2] [AddCommGroup GT] (E : PairingCurve q G1 G2 GT)

/-- The numbers of a key in the contract of GM17. -/
def contractOf17 (vk : Key17 G1 G2) : Contract17 :=
  ⟨point2 E vk.h, word1 E vk.gAlpha, point2 E vk.hBeta, word1 E vk.gGamma, point2 E vk.hGamma, vk.query.map (word1 E),
    vk.query.length - 1⟩

/-- `ECTwistAdd` adds points. -/
def AddOk (add : G2Point → G2Point → Option G2Point) : Prop := ∀ P Q, add (point2 E P) (point2 E Q) = some (point2 E (P + Q))

theorem point2_of_words {b : G2Point} {B : G2} (h : word2 E B = words b) : b = point2 E B := by
  unfold point2
  rw [h]
  rfl

theorem pairing_words [DecidableEq GT] (as : List (ℕ × ℕ)) (bs : List G2Point) (h : as.length = bs.length) (ok : Bool) :
    pairing E as bs = some ok ↔ ∃ t, ecSum E ((as.zip bs).map fun (a, b) => (a, words b)) = some t ∧ ok = decide (t = 0) := by
  unfold pairing
  rw [if_pos h]
  show ecPairing E ((as.zip bs).map fun (a, b) => (a, words b)) = some ok ↔ _
  unfold ecPairing
  generalize ecSum E ((as.zip bs).map fun (a, b) => (a, words b)) = o
  cases o with
  | none => simp
  | some t => simp [eq_comm]

theorem prod2_true [DecidableEq GT] (a : ℕ × ℕ) (hGamma : G2) (gGamma : G1) (b : G2Point) :
    pairingProd2 E a (point2 E hGamma) (word1 E (-gGamma)) b = some true ↔
      ∃ A B, word1 E A = a ∧ word2 E B = words b ∧ E.pair A hGamma = E.pair gGamma B := by
  unfold pairingProd2
  rw [pairing_words E _ _ rfl]
  simp only [List.zip_cons_cons, List.zip_nil_right, List.map_cons, List.map_nil, words_point2]
  constructor
  · rintro ⟨t, h, ht⟩
    have ht := of_decide_eq_true ht.symm
    subst ht
    obtain ⟨A, H, u, hA, hH, hu, h0⟩ := (ecSum_cons E _ _ _ _).1 h
    obtain ⟨G, B, v, hG, hB, hv, rfl⟩ := (ecSum_cons E _ _ _ _).1 hu
    cases word2_inj E hH; cases word1_inj E hG
    cases hv
    refine ⟨A, B, hA, hB, ?_⟩
    rw [map_neg, AddMonoidHom.neg_apply, add_zero, add_neg_eq_zero] at h0
    exact h0
  · rintro ⟨A, B, hA, hB, h⟩
    refine ⟨_, (ecSum_cons E _ _ _ _).2 ⟨A, hGamma, _, hA, rfl, (ecSum_cons E _ _ _ _).2 ⟨-gGamma, B, 0, rfl, hB, rfl, rfl⟩, rfl⟩, ?_⟩
    rw [map_neg, AddMonoidHom.neg_apply, add_zero, h, add_neg_cancel, decide_eq_true rfl]

theorem prod4_true [DecidableEq GT] (P1 P2 P4 : G1) (Q1 Q2 Q3 Q4 : G2) (c : ℕ × ℕ) :
    pairingProd4 E (word1 E P1) (point2 E Q1) (word1 E P2) (point2 E Q2) c (point2 E Q3) (word1 E P4) (point2 E Q4) = some true ↔
      ∃ C, word1 E C = c ∧ E.pair P1 Q1 + (E.pair P2 Q2 + (E.pair C Q3 + E.pair P4 Q4)) = 0 := by
  unfold pairingProd4
  rw [pairing_words E _ _ rfl]
  simp only [List.zip_cons_cons, List.zip_nil_right, List.map_cons, List.map_nil, words_point2]
  constructor
  · rintro ⟨t, h, ht⟩
    have ht := of_decide_eq_true ht.symm
    subst ht
    obtain ⟨A, B, u, hA, hB, hu, h0⟩ := (ecSum_cons E _ _ _ _).1 h
    obtain ⟨X, Y, v, hX, hY, hv, rfl⟩ := (ecSum_cons E _ _ _ _).1 hu
    obtain ⟨C, D, w, hC, hD, hw, rfl⟩ := (ecSum_cons E _ _ _ _).1 hv
    obtain ⟨F, H, z, hF, hH, hz, rfl⟩ := (ecSum_cons E _ _ _ _).1 hw
    cases word1_inj E hA; cases word2_inj E hB; cases word1_inj E hX; cases word2_inj E hY
    cases word2_inj E hD; cases word1_inj E hF; cases word2_inj E hH
    cases hz
    rw [add_zero] at h0
    exact ⟨C, hC, h0⟩
  · rintro ⟨C, hC, h⟩
    refine ⟨_, (ecSum_cons E _ _ _ _).2 ⟨P1, Q1, _, rfl, rfl, (ecSum_cons E _ _ _ _).2 ⟨P2, Q2, _, rfl, rfl,
      (ecSum_cons E _ _ _ _).2 ⟨C, Q3, _, hC, rfl, (ecSum_cons E _ _ _ _).2 ⟨P4, Q4, 0, rfl, rfl, rfl, rfl⟩, rfl⟩, rfl⟩, rfl⟩, ?_⟩
    rw [add_zero, h, decide_eq_true rfl]

theorem checks17_iff [DecidableEq GT] {add : G2Point → G2Point → Option G2Point} (hadd : AddOk E add) (vk : Key17 G1 G2) (X : G1)
    (a : ℕ × ℕ) (b : G2Point) (c : ℕ × ℕ) :
    checks17 E add (contractOf17 E vk) (word1 E X) a b c = some 0 ↔
      ∃ A B C, word1 E A = a ∧ word2 E B = words b ∧ word1 E C = c ∧
        E.pair (A + vk.gAlpha) (B + vk.hBeta) = E.pair vk.gAlpha vk.hBeta + E.pair X vk.hGamma + E.pair C vk.h ∧
        E.pair A vk.hGamma = E.pair vk.gGamma B := by
  have he : ∀ (A : G1) (B : G2) (C : G1), E.pair vk.gAlpha vk.hBeta + (E.pair X vk.hGamma + (E.pair C vk.h +
      E.pair (-(A + vk.gAlpha)) (B + vk.hBeta))) = 0 ↔
      E.pair (A + vk.gAlpha) (B + vk.hBeta) = E.pair vk.gAlpha vk.hBeta + E.pair X vk.hGamma + E.pair C vk.h := by
    intro A B C
    rw [map_neg E.pair, AddMonoidHom.neg_apply, ← add_assoc, ← add_assoc, add_neg_eq_zero]
    exact eq_comm
  unfold checks17 contractOf17
  simp only [negate_word]
  constructor
  · intro h
    split at h
    · rename_i s t hs ht
      split at h
      · cases h
      · simp at h
      · rename_i h4
        split at h
        · cases h
        · simp at h
        · rename_i h2
          obtain ⟨A, B, hA, hB, h2⟩ := (prod2_true E _ _ _ _).1 h2
          have hb := point2_of_words E hB
          rw [hb, hadd, Option.some.injEq] at ht
          rw [← hA, ecAdd_word, Option.some.injEq] at hs
          rw [← hs, ← ht, negate_word] at h4
          obtain ⟨C, hC, h4⟩ := (prod4_true E _ _ _ _ _ _ _ _).1 h4
          exact ⟨A, B, C, hA, hB, hC, (he A B C).1 h4, h2⟩
    · cases h
  · rintro ⟨A, B, C, hA, hB, hC, h4, h2⟩
    have hb := point2_of_words E hB
    have h2' := (prod2_true E a vk.hGamma vk.gGamma b).2 ⟨A, B, hA, hB, h2⟩
    have h4' := (prod4_true E vk.gAlpha X (-(A + vk.gAlpha)) vk.hBeta vk.hGamma vk.h (B + vk.hBeta) c).2 ⟨C, hC, (he A B C).2 h4⟩
    rw [h2', ← hA, ecAdd_word, hb, hadd]
    simp only [negate_word, h4']

theorem verifyTx17_true [DecidableEq GT] (add : G2Point → G2Point → Option G2Point) (r : ℕ) (vk : Contract17) (a : ℕ × ℕ)
    (b : G2Point) (c : ℕ × ℕ) (xs : List ℕ) :
    verifyTx17 E add r vk a b c xs = some true ↔
      xs.length = vk.inputLength ∧ contractVerify17 E add r vk xs a b c = some 0 := by
  unfold verifyTx17
  by_cases hl : xs.length = vk.inputLength
  · rw [if_pos hl]
    cases contractVerify17 E add r vk xs a b c with
    | none => simp
    | some n => simp [hl]
  · rw [if_neg hl]
    simp [hl]

/-- **C72 for GM17**. The contract returns true iff the words of the call are the words of points that are a valid proof for the public
inputs, which are less than the order `r`. Missing: that `ECTwistAdd` adds points, which is assumed (`AddOk`). -/
theorem C72_gm17_accepts_partial [DecidableEq GT] {add : G2Point → G2Point → Option G2Point} (hadd : AddOk E add) (r : ℕ)
    (vk : Key17 G1 G2) (a : ℕ × ℕ) (b : G2Point) (c : ℕ × ℕ) (xs : List ℕ) :
    verifyTx17 E add r (contractOf17 E vk) a b c xs = some true ↔ (∀ x ∈ xs, x < r) ∧
      ∃ A B C, word1 E A = a ∧ word2 E B = (b.X1, b.X0, b.Y1, b.Y0) ∧ word1 E C = c ∧ Valid17 E vk ⟨A, B, C⟩ xs := by
  rw [verifyTx17_true]
  unfold contractVerify17
  have hlen : (contractOf17 E vk).query.length = vk.query.length := by simp [contractOf17]
  have hin : (contractOf17 E vk).inputLength = vk.query.length - 1 := rfl
  cases hk : vk.query with
  | nil =>
    rw [hin, hlen, hk]
    constructor
    · intro h
      simp at h
    · rintro ⟨-, A, B, C, -, -, -, k, ks, hq, -⟩
      rw [hk] at hq; cases hq
  | cons k ks =>
    have hq : (contractOf17 E vk).query = (k :: ks).map (word1 E) := by unfold contractOf17; rw [hk]
    rw [hin, hlen, hk]
    simp only [List.length_cons, Nat.add_sub_cancel, Nat.add_right_cancel_iff]
    by_cases hl : xs.length = ks.length
    · rw [if_pos hl, hq]
      have hx := vkX_eq E r ((k :: ks).map (word1 E)) xs 0 0 ks (by simp) hl.symm
      rw [word1_zero] at hx
      rw [hx]
      by_cases hr : ∀ s ∈ xs, s < r
      · rw [if_pos hr]
        simp only [List.map_cons, List.getElem?_cons_zero, ecAdd_word, zero_add]
        rw [checks17_iff E hadd, add_comm (msm xs ks) k]
        constructor
        · rintro ⟨-, A, B, C, hA, hB, hC, h⟩
          exact ⟨hr, A, B, C, hA, hB, hC, k, ks, hk, hl.symm, h⟩
        · rintro ⟨-, A, B, C, hA, hB, hC, k', ks', hk', -, h⟩
          rw [hk, List.cons.injEq] at hk'
          rw [← hk'.1, ← hk'.2] at h
          exact ⟨hl, A, B, C, hA, hB, hC, h⟩
      · rw [if_neg hr]
        constructor
        · rintro ⟨-, h⟩; cases h
        · rintro ⟨h, -⟩; exact absurd h hr
    · rw [if_neg hl]
      constructor
      · rintro ⟨-, h⟩; cases h
      rintro ⟨-, A, B, C, -, -, -, k', ks', hk', hl', -⟩
      rw [hk, List.cons.injEq] at hk'
      rw [← hk'.2] at hl'
      exact absurd hl'.symm hl

/-- The words of an accepted proof of GM17 are canonical: they cannot be altered as those of Groth16. -/
theorem C72_gm17_canonical_partial [DecidableEq GT] {add : G2Point → G2Point → Option G2Point} (hadd : AddOk E add) (r : ℕ)
    (vk : Key17 G1 G2) (a : ℕ × ℕ) (b : G2Point) (c : ℕ × ℕ) (xs : List ℕ)
    (h : verifyTx17 E add r (contractOf17 E vk) a b c xs = some true) : a.1 < q ∧ a.2 < q ∧ c.1 < q ∧ c.2 < q := by
  have hw : ∀ P : G1, (word1 E P).1 < q ∧ (word1 E P).2 < q := by
    intro P
    unfold word1
    cases E.coords1 P with
    | none => exact ⟨Fld.p_pos, Fld.p_pos⟩
    | some d => exact ⟨ZMod.val_lt _, ZMod.val_lt _⟩
  obtain ⟨-, A, B, C, rfl, -, rfl, -⟩ := (C72_gm17_accepts_partial E hadd r vk a b c xs).1 h
  exact ⟨(hw A).1, (hw A).2, (hw C).1, (hw C).2⟩

/-- The hypotheses are met: an addition of points of `toy`, and a call with the public input 2 that is accepted. -/
example : ∃ add, AddOk toy add ∧ verifyTx17 toy add 3 (contractOf17 toy ⟨1, 1, 1, 1, 1, [1, 2]⟩) (word1 toy 1) (point2 toy 1)
    (word1 toy 1) [2] = some true := by
  classical
  let add : G2Point → G2Point → Option G2Point := fun b c => match decode2 toy (words b), decode2 toy (words c) with
    | some P, some Q => some (point2 toy (P + Q))
    | _, _ => none
  have hadd : AddOk toy add := by
    intro P Q
    show (match decode2 toy (word2 toy P), decode2 toy (word2 toy Q) with
      | some P, some Q => some (point2 toy (P + Q))
      | _, _ => none) = _
    rw [decode2_word, decode2_word]
  refine ⟨add, hadd, (C72_gm17_accepts_partial toy hadd 3 _ _ _ _ _).2 ⟨by decide, 1, 1, 1, rfl, rfl, rfl, 1, [2], rfl, rfl, ?_, ?_⟩⟩
  · show (1 + 1 : ZMod 3) * (1 + 1) = 1 * 1 + (1 + (2 • (2 : ZMod 3) + 0)) * 1 + 1 * 1
    decide +kernel
  · rfl

end Zok.Solidity
