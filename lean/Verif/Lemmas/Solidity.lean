import Verif.Model.Solidity
import Verif.Lemmas.ProofJson

/-
The words of points, and the contract on them.
-/

namespace Zok.Solidity
open Groth

variable {q : ℕ} [Fact q.Prime] {G1 G2 GT : Type} [AddCommGroup G1] [AddCommGroup G2] [AddCommGroup GT] (E : PairingCurve q G1 G2 GT)

theorem val_ne_zero {x : ZMod q} (h : x ≠ 0) : x.val ≠ 0 := fun h' => h ((ZMod.val_eq_zero x).1 h')

theorem val_inj {x y : ZMod q} (h : x.val = y.val) : x = y := ZMod.val_injective q h

theorem word1_inj {P Q : G1} (h : word1 E P = word1 E Q) : P = Q := by
  apply E.inj1
  unfold word1 at h
  cases hP : E.coords1 P with
  | none =>
    cases hQ : E.coords1 Q with
    | none => rfl
    | some c =>
      rw [hP, hQ] at h
      have := val_ne_zero (E.y1 Q c.1 c.2 hQ)
      simp only [Prod.mk.injEq] at h
      exact absurd h.2.symm this
  | some c =>
    cases hQ : E.coords1 Q with
    | none =>
      rw [hP, hQ] at h
      have := val_ne_zero (E.y1 P c.1 c.2 hP)
      simp only [Prod.mk.injEq] at h
      exact absurd h.2 this
    | some d =>
      rw [hP, hQ] at h
      simp only [Prod.mk.injEq] at h
      rw [Option.some.injEq]
      exact Prod.ext (val_inj h.1) (val_inj h.2)

theorem word2_inj {P Q : G2} (h : word2 E P = word2 E Q) : P = Q := by
  have z : ∀ (c : (ZMod q × ZMod q) × (ZMod q × ZMod q)) (R : G2), E.coords2 R = some c → c.1.2.val = 0 → c.1.1.val = 0 →
      c.2.2.val = 0 → c.2.1.val = 0 → False := by
    rintro ⟨⟨a, b⟩, ⟨c, d⟩⟩ R hR h1 h2 h3 h4
    rw [ZMod.val_eq_zero] at h1 h2 h3 h4
    simp only at h1 h2 h3 h4
    subst h1 h2 h3 h4
    exact E.origin2 R hR
  apply E.inj2
  unfold word2 at h
  cases hP : E.coords2 P with
  | none =>
    cases hQ : E.coords2 Q with
    | none => rfl
    | some c =>
      rw [hP, hQ] at h
      simp only [Prod.mk.injEq] at h
      exact (z c Q hQ h.1.symm h.2.1.symm h.2.2.1.symm h.2.2.2.symm).elim
  | some c =>
    cases hQ : E.coords2 Q with
    | none =>
      rw [hP, hQ] at h
      simp only [Prod.mk.injEq] at h
      exact (z c P hP h.1 h.2.1 h.2.2.1 h.2.2.2).elim
    | some d =>
      rw [hP, hQ] at h
      simp only [Prod.mk.injEq] at h
      rw [Option.some.injEq]
      exact Prod.ext (Prod.ext (val_inj h.2.1) (val_inj h.1)) (Prod.ext (val_inj h.2.2.2) (val_inj h.2.2.1))

theorem decode1_iff {n : ℕ × ℕ} {P : G1} : decode1 E n = some P ↔ word1 E P = n := by
  unfold decode1
  by_cases h : ∃ P, word1 E P = n
  · rw [dif_pos h, Option.some.injEq]
    have hs := h.choose_spec
    constructor
    · rintro rfl; exact hs
    · intro h'; exact word1_inj E (hs.trans h'.symm)
  · rw [dif_neg h]
    constructor
    · intro h'; cases h'
    · intro h'; exact absurd ⟨P, h'⟩ h

theorem decode2_iff {n : ℕ × ℕ × ℕ × ℕ} {P : G2} : decode2 E n = some P ↔ word2 E P = n := by
  unfold decode2
  by_cases h : ∃ P, word2 E P = n
  · rw [dif_pos h, Option.some.injEq]
    have hs := h.choose_spec
    constructor
    · rintro rfl; exact hs
    · intro h'; exact word2_inj E (hs.trans h'.symm)
  · rw [dif_neg h]
    constructor
    · intro h'; cases h'
    · intro h'; exact absurd ⟨P, h'⟩ h

theorem decode1_word (P : G1) : decode1 E (word1 E P) = some P := (decode1_iff E).2 rfl

theorem decode2_word (P : G2) : decode2 E (word2 E P) = some P := (decode2_iff E).2 rfl

theorem ecAdd_word (P Q : G1) : ecAdd E (word1 E P) (word1 E Q) = some (word1 E (P + Q)) := by
  unfold ecAdd; rw [decode1_word, decode1_word]

theorem ecMul_word (P : G1) (s : ℕ) : ecMul E (word1 E P) s = some (word1 E (s • P)) := by
  unfold ecMul; rw [decode1_word]

theorem word1_zero : word1 E 0 = (0, 0) := by unfold word1; rw [E.zero1]

theorem val_neg {y : ZMod q} (h : y ≠ 0) : (-y).val = q - y.val := by
  rw [ZMod.neg_val, if_neg h]

theorem negate_iff (c : ℕ × ℕ) (P : G1) : word1 E (-P) = negate q c ↔ Denotes E c P := by
  have hq : 0 < q := Fld.p_pos
  have hm : c.2 % q < q := Nat.mod_lt _ hq
  unfold Denotes
  cases hP : E.coords1 P with
  | none =>
    have h0 : P = 0 := E.inj1 (hP.trans E.zero1.symm)
    subst h0
    rw [neg_zero, word1_zero]
    unfold negate
    simp only
    by_cases hc : c.1 = 0 ∧ c.2 = 0
    · rw [if_pos hc]
      exact ⟨fun _ => Prod.ext hc.1 hc.2, fun _ => rfl⟩
    · rw [if_neg hc]
      constructor
      · intro h
        simp only [Prod.mk.injEq] at h
        omega
      · intro h
        exact absurd ⟨congrArg Prod.fst h, congrArg Prod.snd h⟩ hc
  | some d =>
    obtain ⟨x, y⟩ := d
    have hy := E.y1 P x y hP
    have hyv := val_ne_zero hy
    have hyl : y.val < q := ZMod.val_lt y
    unfold word1
    rw [E.neg1 P x y hP]
    simp only [val_neg hy]
    unfold negate
    by_cases hc : c.1 = 0 ∧ c.2 = 0
    · rw [if_pos hc]
      constructor
      · intro h
        simp only [Prod.mk.injEq] at h
        omega
      · intro h
        rw [hc.2, Nat.zero_mod] at h
        omega
    · rw [if_neg hc]
      simp only [Prod.mk.injEq]
      constructor <;> intro h <;> constructor <;> omega

theorem denotes_word (P : G1) : Denotes E (word1 E P) P := by
  unfold Denotes word1
  cases hP : E.coords1 P with
  | none => rfl
  | some d => exact ⟨rfl, Nat.mod_eq_of_lt (ZMod.val_lt _)⟩

theorem negate_word (P : G1) : negate q (word1 E P) = word1 E (-P) := ((negate_iff E _ P).2 (denotes_word E P)).symm

theorem vkX_eq (r : ℕ) (L : List (ℕ × ℕ)) (ss : List ℕ) (i : ℕ) (P : G1) (gs : List G1) (hL : L.drop (i + 1) = gs.map (word1 E))
    (hl : gs.length = ss.length) :
    vkX E r L ss i (word1 E P) = if ∀ s ∈ ss, s < r then some (word1 E (P + msm ss gs)) else none := by
  induction ss generalizing i P gs with
  | nil => simp [vkX, msm]
  | cons s ss ih =>
    cases gs with
    | nil => simp at hl
    | cons g gs =>
      have hg : L[i + 1]? = some (word1 E g) := by
        have := congrArg List.head? hL
        simpa [List.head?_drop] using this
      have hd : L.drop (i + 1 + 1) = gs.map (word1 E) := by
        have := congrArg List.tail hL
        simpa [List.tail_drop] using this
      unfold vkX
      by_cases hs : s < r
      · rw [if_pos hs, hg]
        simp only [ecMul_word, ecAdd_word]
        rw [ih (i + 1) (P + s • g) gs hd (by simpa using hl)]
        simp only [List.forall_mem_cons, hs, true_and, msm, add_assoc]
      · rw [if_neg hs, if_neg]
        intro h
        exact hs (h s (by simp))

theorem ecSum_cons (a : ℕ × ℕ) (b : ℕ × ℕ × ℕ × ℕ) (l : List ((ℕ × ℕ) × (ℕ × ℕ × ℕ × ℕ))) (t : GT) :
    ecSum E ((a, b) :: l) = some t ↔ ∃ P Q u, word1 E P = a ∧ word2 E Q = b ∧ ecSum E l = some u ∧ E.pair P Q + u = t := by
  rw [ecSum]
  constructor
  · intro h
    split at h
    · rename_i P Q u h1 h2 h3
      exact ⟨P, Q, u, (decode1_iff E).1 h1, (decode2_iff E).1 h2, h3, Option.some.inj h⟩
    · cases h
  · rintro ⟨P, Q, u, rfl, rfl, h3, h⟩
    rw [decode1_word, decode2_word, h3, ← h]

/-- The point in the order of the contract 8. -/
def words (b : G2Point) : ℕ × ℕ × ℕ × ℕ := (b.X1, b.X0, b.Y1, b.Y0)

/-- A point as the library has it. -/
def point2 (Q : G2) : G2Point := ⟨(word2 E Q).2.1, (word2 E Q).1, (word2 E Q).2.2.2, (word2 E Q).2.2.1⟩

theorem words_point2 (Q : G2) : words (point2 E Q) = word2 E Q := rfl

theorem prod4_iff [DecidableEq GT] (a : ℕ × ℕ) (b : G2Point) (x : G1) (gamma : G2) (c : ℕ × ℕ) (delta : G2) (alpha : G1) (beta : G2)
    (ok : Bool) :
    pairingProd4 E a b (word1 E x) (point2 E gamma) (negate q c) (point2 E delta) (word1 E alpha) (point2 E beta) = some ok ↔
      ∃ A B C, word1 E A = a ∧ word2 E B = words b ∧ Denotes E c C ∧
        ok = decide (E.pair A B + (E.pair x gamma + (E.pair (-C) delta + E.pair alpha beta)) = 0) := by
  have hs : ∀ t, ecSum E [(a, words b), (word1 E x, word2 E gamma), (negate q c, word2 E delta), (word1 E alpha, word2 E beta)]
      = some t ↔ ∃ A B C, word1 E A = a ∧ word2 E B = words b ∧ Denotes E c C ∧
        E.pair A B + (E.pair x gamma + (E.pair (-C) delta + E.pair alpha beta)) = t := by
    intro t
    rw [ecSum_cons]
    constructor
    · rintro ⟨A, B, u, hA, hB, hu, rfl⟩
      obtain ⟨X, Y, v, hX, hY, hv, rfl⟩ := (ecSum_cons E _ _ _ _).1 hu
      obtain ⟨C, D, w, hC, hD, hw, rfl⟩ := (ecSum_cons E _ _ _ _).1 hv
      obtain ⟨F, H, z, hF, hH, hz, rfl⟩ := (ecSum_cons E _ _ _ _).1 hw
      cases word1_inj E hX; cases word2_inj E hY; cases word2_inj E hD; cases word1_inj E hF; cases word2_inj E hH
      cases hz
      refine ⟨A, B, -C, hA, hB, (negate_iff E c (-C)).1 (by rw [neg_neg]; exact hC), ?_⟩
      rw [neg_neg, add_zero]
    · rintro ⟨A, B, C, hA, hB, hC, rfl⟩
      refine ⟨A, B, _, hA, hB, (ecSum_cons E _ _ _ _).2 ⟨x, gamma, _, rfl, rfl, (ecSum_cons E _ _ _ _).2 ⟨-C, delta, _,
        (negate_iff E c C).2 hC, rfl, (ecSum_cons E _ _ _ _).2 ⟨alpha, beta, 0, rfl, rfl, rfl, rfl⟩, rfl⟩, rfl⟩, ?_⟩
      rw [add_zero]
  unfold pairingProd4 pairing
  rw [if_pos (show [a, word1 E x, negate q c, word1 E alpha].length =
    [b, point2 E gamma, point2 E delta, point2 E beta].length from rfl)]
  show ecPairing E [(a, words b), (word1 E x, word2 E gamma), (negate q c, word2 E delta), (word1 E alpha, word2 E beta)] = some ok ↔ _
  unfold ecPairing
  cases h : ecSum E [(a, words b), (word1 E x, word2 E gamma), (negate q c, word2 E delta), (word1 E alpha, word2 E beta)] with
  | none =>
    constructor
    · intro h'; cases h'
    · rintro ⟨A, B, C, hA, hB, hC, -⟩
      have := (hs _).2 ⟨A, B, C, hA, hB, hC, rfl⟩
      rw [h] at this; cases this
  | some t =>
    obtain ⟨A, B, C, hA, hB, hC, rfl⟩ := (hs t).1 h
    simp only [Option.some.injEq]
    constructor
    · rintro rfl; exact ⟨A, B, C, hA, hB, hC, rfl⟩
    · rintro ⟨A', B', C', hA', hB', hC', rfl⟩
      have := (hs _).2 ⟨A', B', C', hA', hB', hC', rfl⟩
      rw [h, Option.some.injEq] at this
      rw [this]

theorem equation (A : G1) (B : G2) (C X alpha : G1) (beta gamma delta : G2) :
    E.pair A B + (E.pair (-X) gamma + (E.pair (-C) delta + E.pair (-alpha) beta)) = 0 ↔
      E.pair A B = E.pair alpha beta + E.pair X gamma + E.pair C delta := by
  simp only [map_neg, AddMonoidHom.neg_apply]
  rw [← sub_eq_zero (a := E.pair A B)]
  have : E.pair A B + (-E.pair X gamma + (-E.pair C delta + -E.pair alpha beta)) =
      E.pair A B - (E.pair alpha beta + E.pair X gamma + E.pair C delta) := by abel
  rw [this]

/-- The numbers of a key in the contract. -/
def contractOf (vk : Key G1 G2) : Contract :=
  ⟨word1 E vk.alpha, point2 E vk.beta, point2 E vk.gamma, point2 E vk.delta, vk.gammaAbc.map (word1 E), vk.gammaAbc.length - 1⟩

open Classical in
theorem verifyTx_iff (r : ℕ) (vk : Key G1 G2) (a : ℕ × ℕ) (b : G2Point) (c : ℕ × ℕ) (xs : List ℕ) (ok : Bool) :
    verifyTx E r (contractOf E vk) a b c xs = some ok ↔
      xs.length + 1 = vk.gammaAbc.length ∧ (∀ x ∈ xs, x < r) ∧ ∃ A B C, word1 E A = a ∧ word2 E B = words b ∧ Denotes E c C ∧
        ok = decide (Valid E vk ⟨A, B, C⟩ xs) := by
  obtain ⟨alpha, beta, gamma, delta, abc⟩ := vk
  cases abc with
  | nil =>
    unfold verifyTx contractVerify contractOf
    simp
  | cons k ks =>
    unfold verifyTx contractVerify contractOf
    simp only [List.length_map, List.length_cons, Nat.add_sub_cancel, Nat.add_right_cancel_iff]
    by_cases hl : xs.length = ks.length
    · rw [if_pos hl, if_pos hl]
      have hx := vkX_eq E r ((k :: ks).map (word1 E)) xs 0 0 ks (by simp) hl.symm
      rw [word1_zero] at hx
      rw [hx]
      by_cases hr : ∀ s ∈ xs, s < r
      · rw [if_pos hr]
        simp only [List.map_cons, List.getElem?_cons_zero, ecAdd_word, negate_word, zero_add]
        have hv : ∀ A B C, Valid E ⟨alpha, beta, gamma, delta, k :: ks⟩ ⟨A, B, C⟩ xs ↔
            E.pair A B + (E.pair (-(msm xs ks + k)) gamma + (E.pair (-C) delta + E.pair (-alpha) beta)) = 0 := by
          intro A B C
          rw [equation, add_comm (msm xs ks) k]
          constructor
          · rintro ⟨k', ks', he, -, h⟩
            simp only [List.cons.injEq] at he
            rw [← he.1, ← he.2] at h
            exact h
          · intro h
            exact ⟨k, ks, rfl, hl.symm, h⟩
        have hp := prod4_iff E a b (-(msm xs ks + k)) gamma c delta (-alpha) beta
        generalize hg : pairingProd4 E a b (word1 E (-(msm xs ks + k))) (point2 E gamma) (negate q c) (point2 E delta)
          (word1 E (-alpha)) (point2 E beta) = o at hp
        cases o with
        | none =>
          simp only [reduceCtorEq, false_iff]
          rintro ⟨-, -, A, B, C, hA, hB, hC, -⟩
          exact absurd ((hp _).2 ⟨A, B, C, hA, hB, hC, rfl⟩) (by simp)
        | some o =>
          refine Iff.trans (b := some o = some ok) (by cases o <;> exact Iff.rfl) ?_
          rw [hp]
          simp only [hv, hl, hr, true_and]
          constructor
          · rintro ⟨A, B, C, hA, hB, hC, h⟩
            exact ⟨hr, A, B, C, hA, hB, hC, h⟩
          · rintro ⟨-, A, B, C, hA, hB, hC, h⟩
            exact ⟨A, B, C, hA, hB, hC, h⟩
      · rw [if_neg hr]
        simp only [reduceCtorEq, false_iff]
        rintro ⟨-, h, -⟩
        exact hr h
    · rw [if_neg hl]
      simp only [reduceCtorEq, false_iff]
      rintro ⟨h, -⟩
      exact hl h

end Zok.Solidity
