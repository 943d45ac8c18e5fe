import Verif.Model.Field
import Verif.Lemmas.Bits
import Mathlib.Data.Nat.Digits.Lemmas
import Mathlib.Tactic.IntervalCases

set_option linter.unusedSectionVars false

namespace Zok.Fld
variable {p : ℕ} [Fact p.Prime]

theorem p_pos : 0 < p := (Fact.out : p.Prime).pos
theorem p_ge_two : 2 ≤ p := (Fact.out : p.Prime).two_le

instance : NeZero p := ⟨(p_pos (p := p)).ne'⟩

theorem val_lt (x : ZMod p) : x.val < p := ZMod.val_lt x

theorem lt_two_pow_required : p < 2 ^ requiredBits p := Nat.lt_size_self p

theorem two_pow_le : 2 ^ (requiredBits p - 1) ≤ p := by
  have h : requiredBits p - 1 < Nat.size p := by
    have : 0 < Nat.size p := Nat.size_pos.2 p_pos
    unfold requiredBits; omega
  exact Nat.lt_size.1 h

theorem requiredBits_ge_two : 2 ≤ requiredBits p := by
  have h := p_ge_two (p := p)
  have : 1 < Nat.size p := Nat.lt_size.2 (by simpa using h)
  exact this

theorem two_pow_lt (hp : p ≠ 2) : 2 ^ (requiredBits p - 1) < p := by
  rcases lt_or_eq_of_le (two_pow_le (p := p)) with h | h
  · exact h
  · exfalso
    have hpr : p.Prime := Fact.out
    rw [← h] at hpr
    have h2 := requiredBits_ge_two (p := p)
    have : requiredBits p - 1 = 1 := by
      by_contra hne
      exact Nat.Prime.not_prime_pow (x := 2) (n := requiredBits p - 1) (by omega) hpr
    rw [this] at h
    exact hp (by omega)

theorem requiredBits_le_reprBits : requiredBits p ≤ reprBits p := by
  unfold reprBits limbs; omega

theorem toBitsBe_eq (x : ZMod p) : toBitsBe x = bitsBE (requiredBits p) x.val := by
  unfold toBitsBe reprBitsBe
  simp only [drop_bitsBE, length_bitsBE]
  congr 1
  have := requiredBits_le_reprBits (p := p)
  omega

theorem stripLen_bitsBE (w x : ℕ) (h : x < 2 ^ w) : stripLen (bitsBE w x) = Nat.size x := by
  induction w with
  | zero =>
    have : x = 0 := by simpa using h
    subst this; simp [bitsBE, stripLen]
  | succ w ih =>
    simp only [bitsBE, stripLen, List.length_cons, length_bitsBE]
    split
    · rename_i hb
      apply le_antisymm
      · exact Nat.lt_size.2 (Nat.ge_two_pow_of_testBit hb)
      · exact Nat.size_le.2 h
    · rename_i hb
      refine ih ?_
      by_contra hc
      apply hb
      have h1 : 2 ^ w ≤ x := by omega
      have h2 : x / 2 ^ w = 1 := by
        apply Nat.div_eq_of_lt_le
        · simpa using h1
        · rw [pow_succ] at h; omega
      rw [Nat.testBit_eq_decide_div_mod_eq, h2]; rfl

theorem bits_eq (x : ZMod p) : bits x = max (Nat.size x.val) 1 := by
  unfold bits reprBitsBe
  rw [stripLen_bitsBE]
  exact lt_of_lt_of_le (val_lt x) (le_trans lt_two_pow_required.le
    (Nat.pow_le_pow_right (by norm_num) requiredBits_le_reprBits))

theorem natLE_bytesLE (n x : ℕ) : natLE (bytesLE n x) = x % 256 ^ n := by
  induction n generalizing x with
  | zero => simp [bytesLE, natLE, Nat.mod_one]
  | succ n ih =>
    simp only [bytesLE, natLE, ih]
    rw [pow_succ', Nat.mod_mul]

theorem length_bytesLE (n x : ℕ) : (bytesLE n x).length = n := by
  induction n generalizing x with
  | zero => rfl
  | succ n ih => simp [bytesLE, ih]

theorem p_lt_256 : p < 256 ^ (8 * limbs p) := by
  have h : (256 : ℕ) ^ (8 * limbs p) = 2 ^ reprBits p := by
    rw [show (256 : ℕ) = 2 ^ 8 by norm_num, ← pow_mul]
    congr 1
    unfold reprBits; ring
  rw [h]
  exact lt_of_lt_of_le lt_two_pow_required (Nat.pow_le_pow_right (by norm_num) requiredBits_le_reprBits)

theorem val_maxValue : (maxValue p).val = p - 1 := by
  have h := p_pos (p := p)
  have : maxValue p = ((p - 1 : ℕ) : ZMod p) := by
    unfold maxValue
    rw [Nat.cast_sub h]; simp
  rw [this, ZMod.val_natCast_of_lt (by omega)]

theorem cast_val (x : ZMod p) : ((x.val : ℕ) : ZMod p) = x := ZMod.natCast_zmod_val x

theorem val_natCast_of_lt {n : ℕ} (h : n < p) : ((n : ℕ) : ZMod p).val = n := ZMod.val_natCast_of_lt h

theorem tryFromBiguint_eq (n : ℕ) : tryFromBiguint p n = if n < p then some (n : ZMod p) else none := by
  unfold tryFromBiguint
  rw [val_maxValue]
  have := p_pos (p := p)
  by_cases h : n < p
  · rw [if_pos h, if_pos (by omega)]
  · rw [if_neg h, if_neg (by omega)]

theorem val_maxUniqueValue : (maxUniqueValue p).val = 2 ^ (requiredBits p - 1) - 1 := by
  have h1 : 1 ≤ 2 ^ (requiredBits p - 1) := Nat.one_le_two_pow
  have h2 := two_pow_le (p := p)
  have : maxUniqueValue p = ((2 ^ (requiredBits p - 1) - 1 : ℕ) : ZMod p) := by
    unfold maxUniqueValue
    rw [Nat.cast_sub h1]; push_cast; rfl
  rw [this, val_natCast_of_lt (by omega)]


/-! ### decimal strings -/

theorem charDigit_digitChar {d : ℕ} (h : d < 10) : charDigit (digitChar d) = some d := by
  interval_cases d <;> rfl

theorem digitChar_ne {d : ℕ} (h : d < 10) : digitChar d ≠ '_' ∧ digitChar d ≠ '+' ∧ digitChar d ≠ '(' := by
  interval_cases d <;> decide

theorem parseDigits_map (ds : List ℕ) (h : ∀ d ∈ ds, d < 10) (acc : ℕ) :
    parseDigits 10 (ds.map digitChar) acc = some (ds.foldl (fun a d => a * 10 + d) acc) := by
  induction ds generalizing acc with
  | nil => rfl
  | cons d ds ih =>
    have hd : d < 10 := h d (by simp)
    simp only [List.map_cons, parseDigits, (digitChar_ne hd).1, if_false, charDigit_digitChar hd, hd, if_true,
      List.foldl_cons]
    exact ih (fun x hx => h x (List.mem_cons_of_mem _ hx)) _

theorem decString_cases (n : ℕ) : ∃ ds : List ℕ, ds ≠ [] ∧ (∀ d ∈ ds, d < 10) ∧ decString n = ds.map digitChar ∧
    ds.foldl (fun a d => a * 10 + d) 0 = n := by
  unfold decString
  split
  · rename_i h; exact ⟨[0], by simp, by simp, rfl, by simp [h]⟩
  · rename_i h
    refine ⟨(Nat.digits 10 n).reverse, ?_, ?_, rfl, ?_⟩
    · simpa using (Nat.digits_ne_nil_iff_ne_zero (b := 10)).2 h
    · intro d hd
      exact Nat.digits_lt_base (by norm_num) (List.mem_reverse.1 hd)
    · rw [List.foldl_reverse]
      conv_rhs => rw [← Nat.ofDigits_digits 10 n]
      rw [Nat.ofDigits_eq_foldr]
      congr 1
      funext d a; push_cast; ring

theorem parseBytes_decString (n : ℕ) : parseBytes 10 (decString n) = some n := by
  obtain ⟨ds, hne, hlt, hs, hv⟩ := decString_cases n
  cases ds with
  | nil => exact absurd rfl hne
  | cons d ds =>
    have hd := digitChar_ne (hlt d (by simp))
    rw [hs]
    have : parseBytes 10 ((d :: ds).map digitChar) = parseDigits 10 ((d :: ds).map digitChar) 0 := by
      unfold parseBytes
      simp only [List.map_cons]
      split
      · rename_i h; split at h
        · rename_i h'; simp only [List.cons.injEq] at h'; exact absurd h'.1 hd.2.1
        · rename_i h'; simp only [List.cons.injEq] at h'; exact absurd h'.1 hd.2.1
        · simp at h
      · rename_i h; split at h
        · rename_i h'; simp only [List.cons.injEq] at h'; exact absurd h'.1 hd.2.1
        · rename_i h'; simp only [List.cons.injEq] at h'; exact absurd h'.1 hd.2.1
        · simp only [List.cons.injEq] at h; exact absurd h.1 hd.1
      · split
        · rename_i h'; simp only [List.cons.injEq] at h'; exact absurd h'.1 hd.2.1
        · rename_i h'; simp only [List.cons.injEq] at h'; exact absurd h'.1 hd.2.1
        · rfl
    rw [this, parseDigits_map _ hlt, hv]

theorem decString_inj {a b : ℕ} (h : decString a = decString b) : a = b := by
  have h1 := parseBytes_decString a
  rw [h, parseBytes_decString] at h1
  exact (Option.some.inj h1).symm

theorem decString_head (n : ℕ) : ∃ c tl, decString n = c :: tl ∧ c ≠ '(' := by
  obtain ⟨ds, hne, hlt, hs, _⟩ := decString_cases n
  cases ds with
  | nil => exact absurd rfl hne
  | cons d ds => exact ⟨_, _, hs, (digitChar_ne (hlt d (by simp))).2.2⟩

end Zok.Fld
