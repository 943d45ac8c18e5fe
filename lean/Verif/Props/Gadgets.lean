import Verif.Lemmas.Frame
import Verif.Lemmas.SatB
import Verif.Lemmas.FlatSel

/-
C14–C18: the gadgets of the flattener (`zokrates_codegen/src/lib.rs`). `m st = some (r, st')` says that the gadget,
called in state `st`, returns `r` and leaves the state `st'`; `SatF ρ st'.out` that the assignment `ρ`, which can be
chosen by a dishonest prover, satisfies all constraints emitted so far.

Gadgets that decompose numbers into bits look decompositions up in a cache; `CacheOk ρ st` says that the entries the
cache has on entry are right, and `clash = false` that no entry was used for a request it cannot answer. Without the
latter the gadgets are wrong, see `Props/CompileExamples.lean`.
-/

set_option linter.unusedSectionVars false

namespace Zok
variable {p : ℕ} {Z : Type} [Fact p.Prime]
variable {ρ : Assignment (ZMod p)} {st st' : FlState p Z}

open FlatExpr Fld

/- Each example below gives a state, a run of the gadget and an assignment that meet the hypotheses of the theorem before
it, and evaluates the result. Variables 0, 1, … are allocated before the run. -/
/-- The i-th allocated variable. -/
abbrev tv (i : ℕ) : FlatExpr (ZMod 97) := .ident (Variable.new i)

/-- Shape of the examples. -/
def Meets {α : Type} (n : ℕ) (m : FlatM 97 Unit α) (ρ : Assignment (ZMod 97)) (k : α → Prop) : Prop :=
  ∃ a st, m (startState 97 Unit n) = some (a, st) ∧ CacheOk ρ (startState 97 Unit n) ∧ SatF ρ st.out ∧
    st.clash = false ∧ k a

theorem meets {α : Type} {n : ℕ} {m : FlatM 97 Unit α} {ρ : Assignment (ZMod 97)} {k : α → Prop} [DecidablePred k]
    (h : runSatFrom n m ρ (fun a => decide (k a)) = true) : Meets n m ρ k := by
  obtain ⟨a, st, h1, h2, h3, h4, h5⟩ := runSatFrom_spec h
  exact ⟨a, st, h1, h2, h3, h4, by simpa using h5⟩

/-! ### C14 -/

/-- **C14** (soundness). The result of `==` is 1 if the operands have the same value and 0 otherwise. -/
theorem C14_eq_sound {l r e : FlatExpr (ZMod p)} (h : Flt.eqCheck l r st = some (e, st')) (hs : SatF ρ st'.out) :
    e.val ρ = if l.val ρ = r.val ρ then 1 else 0 := by
  have := (Indep.eqCheck l r).sound (ρ := ρ) (E := False) (pre := True) (Sound.eqCheck l r) trivial h hs
  rcases this with h | h
  · exact h.elim
  · rw [h]; unfold boolF; simp

example : Meets 2 (Flt.eqCheck (tv 0) (tv 1)) (tableAssignment [20, 20, 0, 1])
    (fun e => e.val (tableAssignment [20, 20, 0, 1]) = 1) := meets (by decide +kernel)

example : Meets 2 (Flt.eqCheck (tv 0) (tv 1)) (tableAssignment [3, 20, 1, 57])
    (fun e => e.val (tableAssignment [3, 20, 1, 57]) = 0) := meets (by decide +kernel)

/-! ### C15 -/

/-- **C15** (soundness). If the expressions `a` are the bits `al`, then the conditions returned by `constant_le_check`
are booleans, and they are all 1 exactly when `al ≤ b` as numbers. -/
theorem C15_constant_le {a conds : List (FlatExpr (ZMod p))} {al b : List Bool}
    (h : Flt.constantLeCheck a b st = some (conds, st')) (hs : SatF ρ st'.out)
    (ha : a.map (FlatExpr.val ρ) = al.map boolF) :
    al.length = b.length ∧ (∀ c ∈ conds, c.val ρ = 0 ∨ c.val ρ = 1) ∧
    ((∀ c ∈ conds, c.val ρ = 1) ↔ natBE al ≤ natBE b) := by
  have := (Indep.constantLeCheck a b).sound (ρ := ρ) (E := False) (Sound.constantLeCheck a b al (pre := True))
    ⟨trivial, ha⟩ h hs
  rcases this with h | ⟨h1, cl, h2, h3, h4⟩
  · exact h.elim
  · refine ⟨h1, ?_, ?_⟩
    · intro c hc
      have : c.val ρ ∈ conds.map (FlatExpr.val ρ) := List.mem_map.2 ⟨c, hc, rfl⟩
      rw [h2] at this
      obtain ⟨b, _, hb⟩ := List.mem_map.1 this
      rw [← hb]; cases b <;> simp [boolF]
    · rw [← h4, List.all_eq_true]
      have h5 : (∀ c ∈ conds, c.val ρ = 1) ↔ ∀ x ∈ conds.map (FlatExpr.val ρ), x = 1 := by simp
      rw [h5, h2]
      constructor
      · intro h b hb
        have := h (boolF b) (List.mem_map.2 ⟨b, hb, rfl⟩)
        cases b
        · simp [boolF] at this
        · rfl
      · intro h x hx
        obtain ⟨b, hb, rfl⟩ := List.mem_map.1 hx
        have : b = true := h b hb
        subst this; simp [boolF]

/-- **C15** (soundness). The sum of the conditions returned by `constant_le_check` is their number exactly when `al ≤ b`
(the widths are at most the bit length of the modulus). -/
theorem C15_constant_le_sum (hp : 2 < p) {a conds : List (FlatExpr (ZMod p))} {al b : List Bool}
    (h : Flt.constantLeCheck a b st = some (conds, st')) (hs : SatF ρ st'.out)
    (ha : a.map (FlatExpr.val ρ) = al.map boolF) (hb : b.length ≤ requiredBits p) :
    (conds.map (FlatExpr.val ρ)).sum = (conds.length : ZMod p) ↔ natBE al ≤ natBE b := by
  have := (Indep.constantLeCheck a b).sound (ρ := ρ) (E := False) (Sound.constantLeCheck a b al (pre := True))
    ⟨trivial, ha⟩ h hs
  rcases this with h | ⟨h1, cl, h2, h3, h4⟩
  · exact h.elim
  · have hl : conds.length = cl.length := BitsRel.length h2
    rw [h2, sum_map_boolF, ← h4, ← count_true_eq_length, hl]
    have hr := requiredBits_lt hp
    have hc := List.count_le_length (a := true) (l := cl)
    exact ⟨fun h => natCast_inj_of_lt (p := p) (by omega) (by omega) h, fun h => by rw [h]⟩

/-- **C15** (soundness). The enforced comparison can only be satisfied when `al ≤ b`. -/
theorem C15_enforced (hp : 2 < p) {a : List (FlatExpr (ZMod p))} {al b : List Bool} {err : RuntimeError} {u : Unit}
    (h : Flt.enforceLeBits a b err st = some (u, st')) (hs : SatF ρ st'.out)
    (ha : a.map (FlatExpr.val ρ) = al.map boolF) (hb : b.length ≤ requiredBits p) : natBE al ≤ natBE b := by
  have := (Indep.enforceLeBits a b err).sound (ρ := ρ) (E := False)
    (Sound.enforceLeBits hp a b al err hb (pre := True)) ⟨trivial, ha⟩ h hs
  rcases this with h | h
  · exact h.elim
  · exact h.1

/-- 100 ≤ 101 in binary; 110 ≤ 101 is refuted. -/
example : Meets 3 (Flt.constantLeCheck [tv 0, tv 1, tv 2] [true, false, true])
    (tableAssignment [1, 0, 0, 1, 1, 0, 1, 0, 1, 0])
    (fun l => l.map (FlatExpr.val (tableAssignment [1, 0, 0, 1, 1, 0, 1, 0, 1, 0])) = List.replicate l.length 1) :=
  meets (by decide +kernel)

example : Meets 3 (Flt.constantLeCheck [tv 0, tv 1, tv 2] [true, false, true])
    (tableAssignment [1, 1, 0, 1, 1, 0, 1, 0, 1, 0])
    (fun l => l.map (FlatExpr.val (tableAssignment [1, 1, 0, 1, 1, 0, 1, 0, 1, 0])) ≠ List.replicate l.length 1) :=
  meets (by decide +kernel)

example : Meets 3 (Flt.enforceLeBits [tv 0, tv 1, tv 2] [true, false, true] .le)
    (tableAssignment [1, 0, 0, 1, 1, 0, 1, 0, 1, 0]) (fun _ => True) := meets (by decide +kernel)

/-! ### C16 -/

/-- A request for the bits of an expression that is not in the cache. -/
theorem getBits_miss {f : FlatExpr (ZMod p)} {n : ℕ} {err : RuntimeError} {r : List (FlatExpr (ZMod p)) × FlState p Z}
    (hf : ∀ x, f ≠ .value x) (hc : st.cache f = none) (h : Flt.getBits (Flt.withField f) n n err st = some r) :
    Flt.freshBits f n n err st = some r ∧ n ≤ requiredBits p := by
  unfold Flt.getBits at h
  obtain ⟨_, s1, g1, g2⟩ := FlatM.bind_some' h
  obtain ⟨_, s2, g3, g4⟩ := FlatM.bind_some' g2
  unfold Flt.assert at g1 g3
  split at g1
  · rename_i hn
    cases g1
    split at g3
    · cases g3
      have key : (Flt.freshBits f (max n n) n err : FlatM p Z _) st = some r := by
        cases f with
        | value x => exact absurd rfl (hf x)
        | _ =>
          obtain ⟨f', s3, g5, g6⟩ := FlatM.bind_some' g4
          cases g5
          obtain ⟨c, s4, g7, g8⟩ := FlatM.bind_some' g6
          cases g7
          rw [hc] at g8
          exact g8
      rw [max_self] at key
      exact ⟨key, by simpa using hn⟩
    · rename_i h2; exact absurd hn h2
  · cases g1

/-- **C16** (soundness). A new decomposition of an expression into `n` bits, `2^n ≤ p`: the value is below `2^n` and the
bits are its binary digits. There is no other solution. -/
theorem C16_bits_unique {f : FlatExpr (ZMod p)} {n : ℕ} {err : RuntimeError} {bits : List (FlatExpr (ZMod p))}
    (hf : ∀ x, f ≠ .value x) (hc : st.cache f = none) (hn : 2 ^ n ≤ p)
    (h : Flt.getBits (Flt.withField f) n n err st = some (bits, st')) (hs : SatF ρ st'.out) :
    (f.val ρ).val < 2 ^ n ∧ bits.map (FlatExpr.val ρ) = (bitsBE n (f.val ρ).val).map boolF := by
  obtain ⟨h1, h2⟩ := getBits_miss hf hc h
  have := (Indep.freshBits f n n err).sound (ρ := ρ) (E := False)
    (Sound.freshBits f n n err le_rfl h2 (Or.inr rfl) (pre := True)) trivial h1 hs
  rcases this with h | ⟨bl, N, b1, b2, b3, b4, b5⟩
  · exact h.elim
  · have hv : (f.val ρ).val = N := val_eq_of_lt (lt_of_lt_of_le b3 hn) b4
    rw [hv]
    refine ⟨b3, ?_⟩
    rw [Nat.mod_eq_of_lt b3] at b5
    rw [← b5, ← b2, bitsBE_natBE]
    exact b1

/-- **C16** (soundness). At the full width of the field, with the check against `p - 1` that comes with it
(`constant_field_le_check`), the bits are the binary digits of the canonical representative. -/
theorem C16_full_width (hp : 2 < p) {f : FlatExpr (ZMod p)} {err err' : RuntimeError}
    {bits : List (FlatExpr (ZMod p))} (hf : ∀ x, f ≠ .value x) (hc : st.cache f = none)
    (h : (do
      let bits ← Flt.getBits (Flt.withField f) (requiredBits p) (requiredBits p) err
      Flt.enforceLeBits bits (toBitsBe (maxValue p)) err'
      pure bits : FlatM p Z _) st = some (bits, st')) (hs : SatF ρ st'.out) :
    bits.map (FlatExpr.val ρ) = (bitsBE (requiredBits p) (f.val ρ).val).map boolF := by
  obtain ⟨bits', st1, h1, h2⟩ := FlatM.bind_some' h
  obtain ⟨_, st2, h3, h4⟩ := FlatM.bind_some' h2
  have h5 : some (bits', st2) = some (bits, st') := h4
  cases h5
  obtain ⟨g1, g2⟩ := getBits_miss hf hc h1
  have hi := (Indep.freshBits f (requiredBits p) (requiredBits p) err (Z := Z)).bind fun bits =>
    (Indep.enforceLeBits bits (toBitsBe (maxValue p)) err').bind fun _ => Indep.pure bits
  have hrun : (Flt.freshBits f (requiredBits p) (requiredBits p) err >>= fun bits =>
      Flt.enforceLeBits bits (toBitsBe (maxValue p)) err' >>= fun _ => pure bits : FlatM p Z _) st =
      some (bits, st') := by
    show (Flt.freshBits f (requiredBits p) (requiredBits p) err st).bind _ = _
    rw [g1]
    exact h2
  have := hi.sound (ρ := ρ) (E := False) (pre := True) (P := fun bs => ∃ bl, BitsRel ρ bs bl ∧
      bl.length = requiredBits p ∧ ((natBE bl : ℕ) : ZMod p) = f.val ρ ∧ natBE bl < p) ?_ trivial hrun hs
  · rcases this with h | ⟨bl, b1, b2, b3, b4⟩
    · exact h.elim
    · rw [val_eq_of_lt b4 b3, ← b2, bitsBE_natBE]; exact b1
  · refine Sound.bind_ex ((Sound.freshBits f _ _ err le_rfl g2 (Or.inr rfl)).post fun bs _ h => h) fun bs bl => ?_
    refine Sound.bind ((Sound.enforceLeBits hp bs (toBitsBe (maxValue p)) bl err' (by rw [length_toBitsBe])
      (pre := ∃ N, BitsRel ρ bs bl ∧ bl.length = requiredBits p ∧ N < 2 ^ requiredBits p ∧
        ((N : ℕ) : ZMod p) = f.val ρ ∧ natBE bl = N % 2 ^ requiredBits p)).pre_of ?_) fun _ => Sound.pure ?_
    · rintro ⟨_, N, h⟩; exact ⟨⟨N, h⟩, h.1⟩
    · rintro ⟨⟨_, N, h1, h2, h3, h4, h5⟩, h6, _⟩
      rw [Nat.mod_eq_of_lt h3] at h5
      subst h5
      rw [natBE_toBitsBe] at h6
      have := val_lt (maxValue p)
      exact ⟨bl, h1, h2, h4, by omega⟩

example : Meets 1 (Flt.getBits (Flt.withField (tv 0)) 3 3 .sum) (tableAssignment [5, 1, 0, 1])
    (fun bs => bs.map (FlatExpr.val (tableAssignment [5, 1, 0, 1])) = [1, 0, 1]) := meets (by decide +kernel)

example : Meets 1 (do
      let bits ← Flt.getBits (Flt.withField (tv 0)) (requiredBits 97) (requiredBits 97) .sum
      Flt.enforceLeBits bits (toBitsBe (maxValue 97)) .le
      pure bits)
    (tableAssignment [90, 1, 0, 1, 1, 0, 1, 0, 1, 1, 0, 1, 0, 0, 0, 0, 0, 0, 0, 0, 0, 0, 0, 0, 1, 0, 1])
    (fun bs => bs.length = 7) := meets (by decide +kernel)

/-- Use of a soundness statement. -/
theorem Sound.run {L : ZId → Option Variable} {E : Prop} {α : Type} {m : FlatM p Z α} {P : α → Prop} {a : α}
    (h : Sound ρ L E True m P) (hL : st.layout = L) (hm : m st = some (a, st')) (hc : CacheOk ρ st)
    (hs : SatF ρ st'.out) (hcl : st'.clash = false) : E ∨ P a := by
  rcases (h st a st' hL hm).2.2.2 trivial hc hs hcl with h | h
  · exact Or.inl h
  · exact Or.inr h.2

/-! ### C17 -/

/-- **C17** (soundness, `e < c`). Exact for all field elements. -/
theorem C17_lt_constant_partial (hp : 2 < p) {e r : FlatExpr (ZMod p)} {c : ZMod p}
    (h : Flt.constantLt e c st = some (r, st')) (hc : CacheOk ρ st) (hs : SatF ρ st'.out) (hcl : st'.clash = false) :
    r.val ρ = if (e.val ρ).val < c.val then 1 else 0 := by
  rcases (Sound.constantLt (E := False) (L := st.layout) (ρ := ρ) hp e c).run rfl h hc hs hcl with h | h
  · exact h.elim
  · rw [h]; unfold boolF; simp

example : ∃ ρ, Meets 1 (Flt.constantLt (tv 0) 5) ρ (fun e => e.val ρ = 1) :=
  ⟨tableAssignment [2, 0, 0, 0, 0, 0, 1, 0, 0, 1, 0, 0, 0, 0, 0, 0, 0, 0, 0, 0, 0, 0, 1, 1, 1, 0, 1, 0, 1, 0, 1, 0, 1, 0, 1, 0, 1, 0, 0, 0, 0, 0, 0, 0, 0, 0, 1, 6, 6, 0, 1],
    meets (by decide +kernel)⟩

/-- **C17** (soundness, field `l < r`, including constants on either side). The result is exact; and when both operands
are dynamic the constraints can only be satisfied if both are below `2^(bits - 2)`. -/
theorem C17_field_lt_partial (hp : 2 < p) {l r e : FlatExpr (ZMod p)}
    (h : Flt.fieldLtCheck l r st = some (e, st')) (hc : CacheOk ρ st) (hs : SatF ρ st'.out) (hcl : st'.clash = false) :
    (e.val ρ = if (l.val ρ).val < (r.val ρ).val then 1 else 0) ∧
    ((∀ c, l ≠ .value c) → (∀ c, r ≠ .value c) →
      (l.val ρ).val < 2 ^ (requiredBits p - 2) ∧ (r.val ρ).val < 2 ^ (requiredBits p - 2)) := by
  rcases (Sound.fieldLtCheck (E := False) (L := st.layout) (ρ := ρ) hp l r).run rfl h hc hs hcl with h | ⟨h1, h2⟩
  · exact h.elim
  · refine ⟨by rw [h1]; unfold boolF; simp, fun hl hr => ?_⟩
    rcases h2 with ⟨c, h⟩ | ⟨c, h⟩ | h
    · exact absurd h (hl c)
    · exact absurd h (hr c)
    · exact h

example : ∃ ρ, Meets 2 (Flt.fieldLtCheck (tv 0) (tv 1)) ρ (fun e => e.val ρ = 1) :=
  ⟨tableAssignment [3, 20, 0, 0, 0, 1, 1, 1, 0, 1, 0, 0, 0, 0, 1, 1, 1, 1], meets (by decide +kernel)⟩

/-- **C17** (soundness, `l < r` for integers of `w` bits). Exact when the operands are in range. -/
theorem C17_uint_lt_partial (hp : 2 < p) {l r e : FlatExpr (ZMod p)} {w : ℕ} (hw : w + 1 < requiredBits p)
    (h : Flt.ltCheck l r w st = some (e, st')) (hl : (l.val ρ).val < 2 ^ w) (hr : (r.val ρ).val < 2 ^ w)
    (hc : CacheOk ρ st) (hs : SatF ρ st'.out) (hcl : st'.clash = false) :
    e.val ρ = if (l.val ρ).val < (r.val ρ).val then 1 else 0 := by
  rcases ((Sound.ltCheck (E := False) (pre := True) (L := st.layout) (ρ := ρ) hp l r w hw).pre_of
    fun _ => ⟨trivial, fun _ _ => ⟨hl, hr⟩⟩).run rfl h hc hs hcl with h | h
  · exact h.elim
  · rw [h]; unfold boolF; simp

example : ∃ ρ, Meets 2 (Flt.ltCheck (tv 0) (tv 1) 2) ρ (fun e => e.val ρ = 1) :=
  ⟨tableAssignment [2, 3, 0, 1, 1], meets (by decide +kernel)⟩

/-- **C17** (soundness, `l <= r` for integers of `w` bits). -/
theorem C17_uint_le_partial (hp : 2 < p) {l r e : FlatExpr (ZMod p)} {w : ℕ} (hw : w + 1 < requiredBits p)
    (h : Flt.leCheck l r w st = some (e, st')) (hl : (l.val ρ).val < 2 ^ w) (hr : (r.val ρ).val < 2 ^ w)
    (hc : CacheOk ρ st) (hs : SatF ρ st'.out) (hcl : st'.clash = false) :
    e.val ρ = if (l.val ρ).val ≤ (r.val ρ).val then 1 else 0 := by
  rcases ((Sound.leCheck (E := False) (pre := True) (L := st.layout) (ρ := ρ) hp l r w hw).pre_of
    fun _ => ⟨trivial, fun _ _ => ⟨hl, hr⟩⟩).run rfl h hc hs hcl with h | h
  · exact h.elim
  · rw [h]; unfold boolF; simp

example : ∃ ρ, Meets 2 (Flt.leCheck (tv 0) (tv 1) 2) ρ (fun e => e.val ρ = 1) :=
  ⟨tableAssignment [3, 3, 0, 1, 1, 0, 0], meets (by decide +kernel)⟩

/-- **C17** (soundness, `assert(e < c)`): satisfiable only if `e` is below the constant. -/
theorem C17_enforced_lt_partial (hp : 2 < p) {e : FlatExpr (ZMod p)} {c : ZMod p} {err : RuntimeError} {u : Unit}
    (h : Flt.enforceConstantLt e c err st = some (u, st')) (he : ∀ x, e ≠ .value x)
    (hc : CacheOk ρ st) (hs : SatF ρ st'.out) (hcl : st'.clash = false) : (e.val ρ).val < c.val := by
  rcases ((Sound.enforceConstantLt (E := False) (pre := True) (L := st.layout) (ρ := ρ) hp e c err).pre_of
    fun _ => ⟨trivial, fun x h => absurd h (he x)⟩).run rfl h hc hs hcl with h | h
  · exact h.elim
  · exact h

example : ∃ ρ, Meets 1 (Flt.enforceConstantLt (tv 0) 20 .le) ρ (fun _ => ρ (Variable.new 0) = 18) :=
  ⟨tableAssignment [18, 1, 0, 0, 1, 0, 1, 1, 0, 1, 0, 1, 1, 1, 0, 1, 0, 0], meets (by decide +kernel)⟩

/-! ### C18 -/

/-- **C18** (soundness). The constraints for a division of integers of `w` bits force quotient and remainder, and cannot
be satisfied if the divisor is zero. -/
theorem C18_euclid_sound_partial (hp : 2 < p) {w : ℕ} {n d : FlatExpr (ZMod p)} {q r : Variable}
    (hw : 2 * w + 2 ≤ requiredBits p) (h : Flt.euclid w n d st = some ((q, r), st'))
    (hn : (n.val ρ).val < 2 ^ w) (hd : (d.val ρ).val < 2 ^ w)
    (hc : CacheOk ρ st) (hs : SatF ρ st'.out) (hcl : st'.clash = false) :
    (d.val ρ).val ≠ 0 ∧ (ρ q).val = (n.val ρ).val / (d.val ρ).val ∧ (ρ r).val = (n.val ρ).val % (d.val ρ).val := by
  rcases ((Sound.euclid (E := False) (pre := True) (L := st.layout) (ρ := ρ) hp w n d hw).pre_of
    fun _ => ⟨trivial, hn, hd⟩).run rfl h hc hs hcl with h | h
  · exact h.elim
  · exact h

example : ∃ ρ, Meets 2 (Flt.euclid 2 (tv 0) (tv 1)) ρ (fun t => ρ t.1 = 1 ∧ ρ t.2 = 1) :=
  ⟨tableAssignment [3, 2, 1, 1, 0, 1, 0, 1, 1, 1], meets (by decide +kernel)⟩

end Zok
