import Verif.Lemmas.Solvers
import Verif.Spec.TestField

/-
C04: built-in solvers (`zokrates_interpreter/src/lib.rs:167-352`).
-/

namespace Zok
variable {p : ℕ} [Fact p.Prime] {Z : Type _} (sem : SolverSem (ZMod p) Z) (solvers : List (Solver Z))

/-- **C04**. `ConditionEq` returns `(y, m)` with `y = x * m`, `(1 - y) * x = 0` and `y = [x ≠ 0]`. -/
theorem C04_conditionEq (x : ZMod p) : ∃ y m, executeSolver sem .conditionEq [x] solvers = .ok [y, m] ∧
    y = x * m ∧ (1 - y) * x = 0 ∧ y = if x = 0 then 0 else 1 := by
  rw [run_conditionEq]
  by_cases h : x = 0
  · exact ⟨0, 1, by simp [h], by simp [h], by simp [h], by simp [h]⟩
  · exact ⟨1, x⁻¹, by simp [h], by simp [h], by simp, by simp [h]⟩

/-- **C04**. `Bits(n)` returns the `n` low-order binary digits, most significant first: `n` values in `{0, 1}` whose
weighted sum is the representative modulo `2^n`, hence the input itself when the input is below `2^n`. -/
theorem C04_bits (x : ZMod p) (n : ℕ) : ∃ bs : List (ZMod p), executeSolver sem (.bits n) [x] solvers = .ok bs ∧
    bs.length = n ∧ (∀ b ∈ bs, b = 0 ∨ b = 1) ∧ sumBE bs = ((x.val % 2 ^ n : ℕ) : ZMod p) ∧
    (x.val < 2 ^ n → sumBE bs = x) := by
  refine ⟨_, run_bits sem solvers x n, by simp, ?_, ?_, ?_⟩
  · intro b hb
    obtain ⟨c, _, rfl⟩ := List.mem_map.1 hb
    exact boolF_eq c
  · rw [sumBE_map_boolF, natBE_bitsBE]
  · intro h
    rw [sumBE_map_boolF, natBE_bitsBE_of_lt h, Fld.cast_val]

/-- **C04**. `Xor`, `Or`, `ShaCh` and `ShaAndXorAndXorAnd` satisfy the constraint they are emitted with on all inputs. -/
theorem C04_boolean_constraints (a b c : ZMod p) :
    (∃ r, executeSolver sem .xor [a, b] solvers = .ok [r] ∧ (a + a) * b = a + b - r) ∧
    (∃ r, executeSolver sem .or [a, b] solvers = .ok [r] ∧ a * b = a + b - r) ∧
    (∃ r, executeSolver sem .shaCh [a, b, c] solvers = .ok [r] ∧ a * (b - c) = r - c) ∧
    (∃ r, executeSolver sem .shaAndXorAndXorAnd [a, b, c] solvers = .ok [r] ∧
      (b * c + b * c - b - c) * a = b * c - r) := by
  refine ⟨⟨_, run_xor .., ?_⟩, ⟨_, run_or .., ?_⟩, ⟨_, run_ch .., ?_⟩, ⟨_, run_maj .., ?_⟩⟩ <;> ring

/-- **C04**. On boolean inputs they compute xor, or, choice and majority. -/
theorem C04_boolean_functions (a b c : Bool) :
    executeSolver sem .xor [boolF a, boolF b] solvers = .ok [boolF (a ^^ b)] ∧
    executeSolver sem .or [boolF a, boolF b] solvers = .ok [boolF (a || b)] ∧
    executeSolver sem .shaCh [boolF a, boolF b, boolF c] solvers = .ok [boolF (if a then b else c)] ∧
    executeSolver sem .shaAndXorAndXorAnd [boolF a, boolF b, boolF c] solvers =
      .ok [boolF ((a && b) ^^ (a && c) ^^ (b && c))] := by
  rw [run_xor, run_or, run_ch, run_maj]
  cases a <;> cases b <;> cases c <;> simp [boolF] <;> ring_nf <;> simp

/-- **C04**. `Div` returns the quotient when the divisor is not zero: `b * q = a`. -/
theorem C04_div (a b : ZMod p) (hb : b ≠ 0) :
    ∃ q, executeSolver sem .div [a, b] solvers = .ok [q] ∧ b * q = a := by
  rw [run_div, if_neg hb]
  exact ⟨_, rfl, mul_div_cancel₀ a hb⟩

/-- **C04**. `EuclideanDiv` returns quotient and remainder of the canonical representatives; it never fails, and divides by
zero as `0` remainder `n`. -/
theorem C04_euclideanDiv (n d : ZMod p) : ∃ q r, executeSolver sem .euclideanDiv [n, d] solvers = .ok [q, r] ∧
    q.val = n.val / d.val ∧ r.val = n.val % d.val ∧ n = q * d + r ∧
    (d = 0 → q = 0 ∧ r = n) ∧ (d ≠ 0 → r.val < d.val) := by
  have hn := Fld.val_lt n
  have hq : ((n.val / d.val : ℕ) : ZMod p).val = n.val / d.val :=
    Fld.val_natCast_of_lt (lt_of_le_of_lt (Nat.div_le_self _ _) hn)
  have hr : ((n.val % d.val : ℕ) : ZMod p).val = n.val % d.val :=
    Fld.val_natCast_of_lt (lt_of_le_of_lt (Nat.mod_le _ _) hn)
  refine ⟨_, _, run_euclideanDiv .., hq, hr, ?_, ?_, ?_⟩
  · conv_lhs => rw [← Fld.cast_val n, ← Nat.div_add_mod' n.val d.val]
    push_cast
    rw [Fld.cast_val d]
  · rintro rfl
    simp
  · intro hd
    rw [hr]
    refine Nat.mod_lt _ (Nat.pos_of_ne_zero ?_)
    rwa [Ne, ZMod.val_eq_zero]

/-- **C04**. Whenever a solver succeeds it returns exactly the number of outputs its signature declares (a reference has
the signature of the solver it points to). -/
theorem C04_output_count (s : Solver Z) (inputs res : List (ZMod p))
    (h : executeSolver sem s inputs solvers = .ok res) :
    (∀ i sig, s ≠ .ref i sig) → res.length = (s.signature sem).2 ∧ inputs.length = (s.signature sem).1 := by
  intro hs
  unfold executeSolver at h
  dsimp only at h
  split at h
  · simp at h
  · rename_i s' hs'
    have : s' = s := by
      cases s <;> simp_all
    subst this
    split at h
    · simp at h
    · rename_i hlen
      split at h
      · simp at h
      · split at h
        · simp at h
        · rename_i hout
          simp only [Except.ok.injEq] at h
          subst h
          simp only [ne_eq, not_not] at hlen hout
          exact ⟨hout, hlen⟩

/-- **C04**. A reference runs the solver stored in the table. -/
theorem C04_ref (i : ℕ) (sig : ℕ × ℕ) (inputs : List (ZMod p)) (s : Solver Z) (hi : solvers[i]? = some s)
    (hs : ∀ i sig, s ≠ .ref i sig) :
    executeSolver sem (.ref i sig) inputs solvers = executeSolver sem s inputs solvers := by
  cases s <;> simp_all [executeSolver]

theorem greedyBits_spec {F : Type _} [Field F] (n : ℕ) : ∀ s, s < 2 ^ n →
    (greedyBits n s : List F) = (bitsBE n s).map boolF := by
  have key : ∀ n s, s < 2 ^ n → ∃ bs : List Bool, (greedyBits n s : List F) = bs.map boolF ∧ bs.length = n ∧
      natBE bs = s := by
    intro n
    induction n with
    | zero => intro s hs; exact ⟨[], rfl, rfl, by simp at hs; simp [natBE, hs]⟩
    | succ n ih =>
      intro s hs
      unfold greedyBits
      split
      · rename_i h
        obtain ⟨bs, h1, h2, h3⟩ := ih (s - 2 ^ n) (by rw [pow_succ] at hs; omega)
        exact ⟨true :: bs, by simp [h1, boolF], by simp [h2], by simp [natBE, h2, h3]; omega⟩
      · rename_i h
        obtain ⟨bs, h1, h2, h3⟩ := ih s (by omega)
        exact ⟨false :: bs, by simp [h1, boolF], by simp [h2], by simp [natBE, h3]⟩
  intro s hs
  obtain ⟨bs, h1, h2, h3⟩ := key n s hs
  rw [h1, ← h3, ← h2, bitsBE_natBE]

/-- **C04**, the adversarial variant of `Bits(n)` used when an execution with out-of-range decompositions is requested
(`try_out_of_range`): for `n` at least the field width, it still returns `n` values in `{0, 1}` whose weighted sum is the
input, so it satisfies the decomposition constraints; it is the *other* decomposition, denoting the representative plus
`p`, exactly if that integer fits the field width. -/
theorem C04_out_of_range_bits (x : ZMod p) (n : ℕ) (hn : Fld.requiredBits p ≤ n) :
    ∃ bs : List Bool, runDirective sem true solvers (.bits n) [x] = .ok (bs.map boolF) ∧ bs.length = n ∧
      sumBE (bs.map boolF) = x ∧
      natBE bs = if x.val + p < 2 ^ Fld.requiredBits p then x.val + p else x.val := by
  have hx := Fld.val_lt x
  have hp := Fld.lt_two_pow_required (p := p)
  have hp0 := Fld.p_pos (p := p)
  have hc : x.val + (Fld.maxValue p).val + 1 = x.val + p := by rw [Fld.val_maxValue]; omega
  set v := if x.val + p < 2 ^ Fld.requiredBits p then x.val + p else x.val with hv
  have hvlt : v < 2 ^ Fld.requiredBits p := by
    rw [hv]; split
    · assumption
    · omega
  have hcast : ((v : ℕ) : ZMod p) = x := by
    rw [hv]; split
    · push_cast; rw [Fld.cast_val]; simp
    · exact Fld.cast_val x
  have hbits : outOfRangeBits n x = (List.replicate (n - Fld.requiredBits p) false ++
      bitsBE (Fld.requiredBits p) v).map boolF := by
    unfold outOfRangeBits
    simp only [hc]
    rw [← hv, greedyBits_spec _ _ hvlt]
    simp [boolF]
  have hnat : natBE (List.replicate (n - Fld.requiredBits p) false ++ bitsBE (Fld.requiredBits p) v) = v := by
    rw [natBE_append, natBE_replicate_false, natBE_bitsBE_of_lt hvlt]; simp
  refine ⟨_, by simp [runDirective, hn, ← hbits], by simp; omega, ?_, hnat⟩
  rw [sumBE_map_boolF, hnat, hcast]

/-! Non-vacuity. -/
example : executeSolver (Z := Unit) (p := 13) ⟨fun _ => (0, 0), fun _ _ => .error "", fun _ _ => []⟩ (.bits 3) [11] [] =
    .ok [0, 1, 1] := by decide +kernel
example : executeSolver (Z := Unit) (p := 13) ⟨fun _ => (0, 0), fun _ _ => .error "", fun _ _ => []⟩ (.ref 1 (2, 2)) [11, 4]
    [.div, .euclideanDiv] = .ok [2, 3] := by decide +kernel
example : outOfRangeBits (p := 13) 5 2 = [0, 1, 1, 1, 1] ∧ outOfRangeBits (p := 13) 4 3 = [0, 0, 1, 1] := by
  decide +kernel

end Zok
