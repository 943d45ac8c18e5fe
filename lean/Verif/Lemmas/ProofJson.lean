import Verif.Model.ProofJson
import Verif.Lemmas.Field
import Verif.Lemmas.Serialize

/-
The strings in proofs and verification keys.
-/

namespace Zok.Proof
open Ser (Bytes)
open Abi (Str trimHex)

theorem digit_facts : ∀ d : Fin 16, hexVal (hexDigit d) = some d.val ∧ Fld.charDigit (hexDigit d) = some d.val ∧
    hexDigit d ≠ '_' ∧ hexDigit d ≠ 'x' ∧ hexDigit d ≠ '+' := by decide +kernel

theorem digit {d : ℕ} (h : d < 16) : hexVal (hexDigit d) = some d ∧ Fld.charDigit (hexDigit d) = some d ∧
    hexDigit d ≠ '_' ∧ hexDigit d ≠ 'x' ∧ hexDigit d ≠ '+' := digit_facts ⟨d, h⟩

/-- All elements are bytes. -/
def IsBytes (b : Bytes) : Prop := ∀ x ∈ b, x < 256

theorem hexDecode_encode (b : Bytes) (h : IsBytes b) : hexDecode (hexEncode b) = some b := by
  induction b with
  | nil => rfl
  | cons x b ih =>
    have hx := h x (by simp)
    have h1 := (digit (d := x / 16) (by omega)).1
    have h2 := (digit (d := x % 16) (by omega)).1
    rw [hexEncode, hexDecode, h1, h2, ih fun y hy => h y (List.mem_cons_of_mem _ hy)]
    simp only [Option.some.injEq, List.cons.injEq, and_true]
    omega

theorem trimHex_encode (b : Bytes) (h : IsBytes b) : trimHex (hexEncode b) = hexEncode b := by
  cases b with
  | nil => rfl
  | cons x b =>
    have h2 := (digit (d := x % 16) (by omega)).2.2.2.1
    rw [hexEncode]
    unfold trimHex
    split
    · rename_i tl he
      simp only [List.cons.injEq] at he
      exact absurd he.2.1 h2
    · rfl

theorem trimHex_string (b : Bytes) (h : IsBytes b) : trimHex (hexString b) = hexEncode b.reverse := by
  unfold hexString
  rw [trimHex, trimHex_encode]
  intro x hx
  exact h x (List.mem_reverse.1 hx)

theorem natLE_append (a b : Bytes) : Fld.natLE (a ++ b) = Fld.natLE a + 256 ^ a.length * Fld.natLE b := by
  induction a with
  | nil => simp [Fld.natLE]
  | cons x a ih =>
    simp only [List.cons_append, Fld.natLE, ih, List.length_cons, pow_succ]
    ring

theorem parseDigits_encode (b : Bytes) (h : IsBytes b) (acc : ℕ) :
    Fld.parseDigits 16 (hexEncode b) acc = some (acc * 256 ^ b.length + Fld.natLE b.reverse) := by
  induction b generalizing acc with
  | nil => simp [hexEncode, Fld.parseDigits, Fld.natLE]
  | cons x b ih =>
    have hx := h x (by simp)
    obtain ⟨-, a1, a2, -, -⟩ := digit (d := x / 16) (by omega)
    obtain ⟨-, b1, b2, -, -⟩ := digit (d := x % 16) (by omega)
    rw [hexEncode, Fld.parseDigits, if_neg a2, a1]
    simp only
    rw [if_pos (by omega), Fld.parseDigits, if_neg b2, b1]
    simp only
    rw [if_pos (by omega), ih fun y hy => h y (List.mem_cons_of_mem _ hy)]
    simp only [Option.some.injEq, List.length_cons, List.reverse_cons, natLE_append, List.length_reverse, Fld.natLE, pow_succ]
    have : (acc * 16 + x / 16) * 16 + x % 16 = acc * 256 + x := by omega
    rw [this]
    ring

theorem parseBytes_cons {c : Char} {s : Str} {r : ℕ} (h1 : c ≠ '+') (h2 : c ≠ '_') :
    Fld.parseBytes r (c :: s) = Fld.parseDigits r (c :: s) 0 := by
  unfold Fld.parseBytes
  split
  · rename_i he
    simp only [List.cons.injEq] at he
    exact absurd he.1 h1
  · rename_i he
    simp only [List.cons.injEq] at he
    exact absurd he.1 h1
  · dsimp only
    split <;> simp_all

theorem parseBytes_encode (b : Bytes) (h : IsBytes b) (hne : b ≠ []) :
    Fld.parseBytes 16 (hexEncode b) = some (Fld.natLE b.reverse) := by
  have hp := parseDigits_encode b h 0
  simp only [Nat.zero_mul, Nat.zero_add] at hp
  cases b with
  | nil => exact absurd rfl hne
  | cons x b =>
    have hx := h x (by simp)
    obtain ⟨-, -, a2, -, a4⟩ := digit (d := x / 16) (by omega)
    rw [hexEncode] at hp ⊢
    rw [parseBytes_cons a4 a2, hp]


variable {q : ℕ}

theorem isBytes_bytesLE (n x : ℕ) : IsBytes (Fld.bytesLE n x) := by
  induction n generalizing x with
  | zero => intro y hy; simp [Fld.bytesLE] at hy
  | succ n ih =>
    intro y hy
    rw [Fld.bytesLE, List.mem_cons] at hy
    rcases hy with rfl | hy
    · exact Nat.mod_lt _ (by norm_num)
    · exact ih _ y hy

theorem length_writeField (x : ZMod q) : (writeField x).length = 8 * Fld.limbs q := Fld.length_bytesLE _ _

theorem isBytes_writeField (x : ZMod q) : IsBytes (writeField x) := isBytes_bytesLE _ _

theorem isBytes_reverse {b : Bytes} (h : IsBytes b) : IsBytes b.reverse := fun x hx => h x (List.mem_reverse.1 hx)

theorem decodeHex_string (b : Bytes) (h : IsBytes b) : decodeHex (hexString b) = some b := by
  rw [hexString, decodeHex, hexDecode_encode _ (isBytes_reverse h)]
  simp

section
variable [Fact q.Prime]

theorem limbs_pos : 0 < 8 * Fld.limbs q := by
  rcases Nat.eq_zero_or_pos (8 * Fld.limbs q) with h | h
  · have h1 := Fld.p_lt_256 (p := q)
    rw [h] at h1
    have := Fld.p_ge_two (p := q)
    simp at h1
    omega
  · exact h

theorem natLE_writeField (x : ZMod q) : Fld.natLE (writeField x) = x.val := by
  rw [writeField, Fld.natLE_bytesLE]
  exact Nat.mod_eq_of_lt (lt_trans (Fld.val_lt x) Fld.p_lt_256)

theorem readField_write (x : ZMod q) (rest : Bytes) : readField q (writeField x ++ rest) = some (x, rest) := by
  have hl := length_writeField x
  unfold readField
  rw [if_neg (by rw [List.length_append, hl]; omega), List.take_left' hl, List.drop_left' hl, natLE_writeField, if_pos (Fld.val_lt x),
    Fld.cast_val]

theorem readFields_write (xs : List (ZMod q)) (rest : Bytes) :
    readFields q xs.length (xs.flatMap writeField ++ rest) = some (xs, rest) := by
  induction xs with
  | nil => rfl
  | cons x xs ih =>
    rw [List.flatMap_cons, List.append_assoc, List.length_cons, readFields, readField_write]
    simp only [ih]

theorem decodeAll_map (xs : List (ZMod q)) : decodeAll (xs.map parseFr) = some (xs.flatMap writeField) := by
  induction xs with
  | nil => rfl
  | cons x xs ih =>
    rw [List.map_cons, decodeAll, ih, parseFr, decodeHex_string _ (isBytes_writeField x)]
    rfl

theorem length_flatMap_write (xs : List (ZMod q)) : (xs.flatMap writeField).length = xs.length * (8 * Fld.limbs q) := by
  induction xs with
  | nil => simp
  | cons x xs ih => rw [List.flatMap_cons, List.length_append, ih, length_writeField, List.length_cons]; ring

theorem chunk (xs : List (ZMod q)) (rest : Bytes) (i : ℕ) (h : i < xs.length) :
    ((xs.flatMap writeField ++ rest).drop (i * (8 * Fld.limbs q))).take (8 * Fld.limbs q) = writeField xs[i] := by
  induction xs generalizing i with
  | nil => simp at h
  | cons x xs ih =>
    rw [List.flatMap_cons, List.append_assoc]
    cases i with
    | zero =>
      rw [Nat.zero_mul, List.drop_zero, List.take_left' (length_writeField x)]
      rfl
    | succ i =>
      have hd : (i + 1) * (8 * Fld.limbs q) = (writeField x).length + i * (8 * Fld.limbs q) := by
        rw [length_writeField]; ring
      rw [hd, ← List.drop_drop, List.drop_left, ih i (by simpa using h)]
      rfl

theorem parsePoint_write (P : Point q) (h : P.coords ≠ []) : parsePoint P.coords.length (writePoint P) = P.coords.map parseFr := by
  have hn : 0 < P.coords.length := List.length_pos_iff.2 h
  unfold parsePoint writePoint
  dsimp only
  rw [List.length_append, length_flatMap_write, List.length_singleton, Nat.add_sub_cancel, Nat.mul_div_cancel_left _ hn]
  apply List.ext_getElem
  · simp
  · intro i h1 h2
    simp only [List.getElem_map, List.getElem_range]
    rw [chunk _ _ _ (by simpa using h1)]
    rfl

end

end Zok.Proof
