import Verif.Lemmas.ProofJson

/-
C71: the strings in proofs and verification keys (`zokrates_ark/src/lib.rs`, `zokrates_proof_systems/src/to_token.rs`).
-/

namespace Zok
open Proof
variable {q : ℕ} [Fact q.Prime]

/-- **C71**. The public inputs in a proof, written by `generate-proof`, are read by `verify` as the same field elements. -/
theorem C71_inputs (x : ZMod q) : readInput q (parseFr x) = some x := by
  have hb := isBytes_writeField x
  have hne : (writeField x).reverse ≠ [] := by
    intro h
    have h1 := congrArg List.length h
    rw [List.length_reverse, length_writeField] at h1
    have := limbs_pos (q := q)
    simp only [List.length_nil] at h1
    omega
  unfold readInput parseFr Fld.tryFromStr
  rw [trimHex_string _ hb, parseBytes_encode _ (isBytes_reverse hb) hne, List.reverse_reverse, natLE_writeField]
  simp only
  rw [Fld.tryFromBiguint_eq, if_pos (Fld.val_lt x), Fld.cast_val]

/-- **C71**. The call of the Solidity verifier gets the same numbers, if elements of the field have at most 256 bits; it is refused
(by a panic) otherwise. -/
theorem C71_solidity (x : ZMod q) : encodeElement (parseFr x) = if 8 * Fld.limbs q ≤ 32 then some x.val else none := by
  have hb := isBytes_writeField x
  unfold encodeElement parseFr
  rw [trimHex_string _ hb, hexDecode_encode _ (isBytes_reverse hb)]
  simp only
  rw [List.length_reverse, length_writeField, List.reverse_reverse, natLE_writeField]

/-- **C71**. A point is written as its coordinates: two strings in `Fq`, four (`c0`, `c1` of `x`, then of `y`) in `Fq2`. -/
theorem C71_points_written (P : Point q) (h : P.coords ≠ []) :
    parsePoint P.coords.length (writePoint P) = P.coords.map parseFr := parsePoint_write P h

/-- **C71**. The strings of a point are read back as the same coordinates, with the flag of infinity cleared. -/
theorem C71_points (P : Point q) (h : P.coords ≠ []) :
    toPoint q (parsePoint P.coords.length (writePoint P)) = some { P with infinity := false } := by
  rw [parsePoint_write P h]
  unfold toPoint
  rw [decodeAll_map]
  simp only [List.length_map]
  unfold readPoint
  rw [readFields_write]
  rfl

/-- **C71**. So a point is read back unchanged if and only if it is not the point at infinity. -/
theorem C71_points_unchanged (P : Point q) (h : P.coords ≠ []) :
    toPoint q (parsePoint P.coords.length (writePoint P)) = some P ↔ P.infinity = false := by
  rw [C71_points P h]
  cases P with
  | mk xs b => simp [eq_comm]

/-- **C71**. Different finite points of one group have different strings. -/
theorem C71_points_injective (P Q : Point q) (h : P.coords ≠ []) (hl : Q.coords.length = P.coords.length) (hP : P.infinity = false)
    (hQ : Q.infinity = false)
    (he : parsePoint P.coords.length (writePoint P) = parsePoint P.coords.length (writePoint Q)) : P = Q := by
  have hq : Q.coords ≠ [] := by
    intro hn
    rw [hn] at hl
    exact h (List.length_eq_zero_iff.1 hl.symm)
  have h1 := (C71_points_unchanged P h).2 hP
  have h2 := (C71_points_unchanged Q hq).2 hQ
  rw [he, ← hl, h2] at h1
  exact (Option.some.inj h1).symm

/-- **C71 (negative)**. The point at infinity is written `(0, 1)`, and read back as a finite point that is on no curve
`y² = x³ + b`, `b ≠ 1`. -/
theorem C71_infinity_lost (b : ZMod q) (hb : b ≠ 1) :
    ∃ x y : ZMod q, toPoint q (parsePoint 2 (writePoint (⟨[0, 1], true⟩ : Point q))) = some ⟨[x, y], false⟩ ∧ y ^ 2 ≠ x ^ 3 + b := by
  refine ⟨0, 1, C71_points ⟨[0, 1], true⟩ (by simp), ?_⟩
  intro h
  apply hb
  have : (0 : ZMod q) ^ 3 = 0 := by ring
  rw [this, zero_add, one_pow] at h
  exact h.symm

/-- The hypotheses are met, with `q = 97`: a byte string of the public input 77, and a point of the second group, are read back. -/
example : parseFr (77 : ZMod 97) = "0x000000000000004d".toList ∧ readInput 97 "0x000000000000004d".toList = some 77 ∧
    readInput 97 "0x0000000000000061".toList = none ∧ encodeElement "0x000000000000004d".toList = some 77 ∧
    parsePoint 4 (writePoint (⟨[1, 2, 3, 96], false⟩ : Point 97)) =
      ["0x0000000000000001".toList, "0x0000000000000002".toList, "0x0000000000000003".toList, "0x0000000000000060".toList] ∧
    toPoint 97 ["0x0000000000000001".toList, "0x0000000000000002".toList, "0x0000000000000003".toList,
      "0x0000000000000060".toList] = some ⟨[1, 2, 3, 96], false⟩ ∧
    toPoint 97 ["0x0000000000000001".toList, "0x0000000000000061".toList] = none ∧
    toPoint 97 ["1".toList, "0x0000000000000001".toList] = none := by decide +kernel

end Zok
