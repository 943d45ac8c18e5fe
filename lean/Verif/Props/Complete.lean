import Verif.Lemmas.Complete
import Verif.Lemmas.CmpExpr
import Verif.Lemmas.EndToEnd
import Verif.Props.CompileExamples

/-
C14–C21, completeness: an honest prover, who computes the values of all variables by running the solvers, can satisfy the
constraints a gadget emits, and the result is right. `Ready sem A D ρ st` describes the situation before the gadget:
`ρ` satisfies what has been emitted so far, and the variables that have values are `D`. `Completes sem D ρ st' K` says
that the prover can keep these values and go on (`Spec/Ready.lean`).
-/

set_option linter.unusedSectionVars false

namespace Zok
variable {p : ℕ} {Z : Type} [Fact p.Prime] {sem : SolverSem (ZMod p) Z}
variable {A D : Set Variable} {ρ : Assignment (ZMod p)} {st st' : FlState p Z} {Γ : Ctx} {env : ZEnv p}

open FlatExpr Fld

/-- Completeness of an action that does not look at the cache. -/
theorem complete_indep {α : Type} {m : FlatM p Z α} {Q : α → Set Variable → Prop} {P : Assignment (ZMod p) → α → Prop}
    {pre : Assignment (ZMod p) → Prop} {a : α} (hi : Indep m)
    (hr : Ready sem A D ρ st) (hm : m st = some (a, st')) (hsc : Scp A D m Q)
    (hcmp : ∀ ρ', Cmp sem ρ' st.layout (pre ρ') m (P ρ'))
    (hpre : ∀ ρ' : Assignment (ZMod p), (∀ x ∈ D, ρ' x = ρ x) → pre ρ') :
    Completes sem D ρ st' (fun ρ' => P ρ' a) := by
  obtain ⟨s', h1, h2, h3, h4, h5⟩ := hi st { st with cache := fun _ => none, clash := false } rfl rfl rfl a st' hm
  have hr' : Ready sem A D ρ { st with cache := fun _ => none, clash := false } :=
    ⟨hr.emitted, hr.unallocated, hr.layout, (fun _ _ h => by cases h), (fun _ _ h => by cases h), hr.good,
      fun _ _ h => by cases h⟩
  obtain ⟨ρ', g1, g2, g3⟩ := complete hr' h1 h5 hsc hcmp hpre
  exact ⟨ρ', g1, by rw [← h3]; exact g2, g3⟩

/-- Shape of the examples: the hypotheses hold when the variables 0, …, n-1 have the given values. -/
def Starts {α : Type} (n : ℕ) (m : FlatM 97 Unit α) : Prop :=
  (∀ (sem : SolverSem (ZMod 97) Unit) (ρ : Assignment (ZMod 97)),
    Ready sem {x | ∃ i < n, x = Variable.new i} {x | ∃ i < n, x = Variable.new i} ρ (startState 97 Unit n)) ∧
  ∃ a st, m (startState 97 Unit n) = some (a, st) ∧ st.clash = false

theorem starts {α : Type} {n : ℕ} {m : FlatM 97 Unit α}
    (h : (match m (startState 97 Unit n) with | none => false | some (_, st) => !st.clash) = true) : Starts n m := by
  refine ⟨fun sem ρ => ⟨.nil, ?_, (fun x v h => by cases h), (fun f c h => by cases h), (fun f c h => by cases h),
    (fun s h => by cases h), fun f c h => by cases h⟩, ?_⟩
  · rintro k hk ⟨i, hi, he⟩
    have : k = i := by
      have := he
      unfold Variable.new at this
      have h2 : (k : Int) = i := by linarith
      exact_mod_cast h2
    have : n ≤ k := hk
    omega
  · split at h
    · cases h
    · rename_i a st hm
      exact ⟨a, st, hm, by simpa using h⟩

theorem tv_in {n i : ℕ} (h : i < n) : (tv i).In {x | ∃ i < n, x = Variable.new i} := ⟨i, h, rfl⟩

/-! ### C14 -/

/-- **C14** (completeness). An honest prover can satisfy the constraints of `==`, whatever the values of the operands. -/
theorem C14_eq_complete {l r e : FlatExpr (ZMod p)} (h : Flt.eqCheck l r st = some (e, st'))
    (hr : Ready sem A D ρ st) (hl : l.In D) (hri : r.In D) :
    Completes sem D ρ st' (fun ρ' => e.val ρ' = if l.val ρ = r.val ρ then 1 else 0) := by
  obtain ⟨ρ', h1, h2, -⟩ := complete_indep (pre := fun _ => True) (P := fun _ _ => True) (Indep.eqCheck l r) hr h
    (Scp.eqCheck hl hri) (fun ρ' => (Cmp.eqCheck l r).drop) (fun _ _ => trivial)
  refine ⟨ρ', h1, h2, ?_⟩
  have := C14_eq_sound h h2.satF
  rwa [In.val_congr hl h1, In.val_congr hri h1] at this

example : Starts 2 (Flt.eqCheck (tv 0) (tv 1)) ∧ (tv 0).In {x | ∃ i < 2, x = Variable.new i} ∧
    (tv 1).In {x | ∃ i < 2, x = Variable.new i} :=
  ⟨starts (by decide +kernel), tv_in (by norm_num), tv_in (by norm_num)⟩

/-! ### C15 -/

theorem bits_congr {a : List (FlatExpr (ZMod p))} {al : List Bool} (hin : ∀ e ∈ a, FlatExpr.In D e)
    (ha : a.map (FlatExpr.val ρ) = al.map boolF) {ρ' : Assignment (ZMod p)} (h : ∀ x ∈ D, ρ' x = ρ x) :
    a.map (FlatExpr.val ρ') = al.map boolF := by
  rw [← ha]
  exact List.map_congr_left fun e he => In.val_congr (hin e he) h

/-- **C15** (completeness). An honest prover can satisfy the constraints of `constant_le_check`, whatever the bits `al`. -/
theorem C15_constant_le_complete {a conds : List (FlatExpr (ZMod p))} {al b : List Bool}
    (h : Flt.constantLeCheck a b st = some (conds, st')) (hr : Ready sem A D ρ st) (hin : ∀ e ∈ a, FlatExpr.In D e)
    (ha : a.map (FlatExpr.val ρ) = al.map boolF) :
    Completes sem D ρ st' (fun ρ' => (∀ c ∈ conds, c.val ρ' = 0 ∨ c.val ρ' = 1) ∧
      ((∀ c ∈ conds, c.val ρ' = 1) ↔ natBE al ≤ natBE b)) := by
  obtain ⟨ρ', h1, h2, -⟩ := complete_indep (Indep.constantLeCheck a b) hr h
    (Scp.constantLeCheck b hin) (fun ρ' => Cmp.constantLeCheck a b al (pre := True))
    (fun ρ' hρ => ⟨trivial, bits_congr hin ha hρ⟩)
  exact ⟨ρ', h1, h2, (C15_constant_le h h2.satF (bits_congr hin ha h1)).2⟩

/-- **C15**. The enforced comparison can be satisfied, by an honest prover, exactly when `al ≤ b`. -/
theorem C15_enforced_iff (hp : 2 < p) {a : List (FlatExpr (ZMod p))} {al b : List Bool} {err : RuntimeError} {u : Unit}
    (h : Flt.enforceLeBits a b err st = some (u, st')) (hr : Ready sem A D ρ st) (hin : ∀ e ∈ a, FlatExpr.In D e)
    (ha : a.map (FlatExpr.val ρ) = al.map boolF) (hb : b.length ≤ requiredBits p) :
    Completes sem D ρ st' (fun _ => True) ↔ natBE al ≤ natBE b := by
  constructor
  · rintro ⟨ρ', h1, h2, -⟩
    exact C15_enforced hp h h2.satF (bits_congr hin ha h1) hb
  · intro hle
    obtain ⟨ρ', h1, h2, -⟩ := complete_indep (Indep.enforceLeBits a b err) hr h
      (Scp.enforceLeBits b err hin) (fun ρ' => Cmp.enforceLeBits a b al err (pre := True))
      (fun ρ' hρ => ⟨⟨trivial, hle⟩, bits_congr hin ha hρ⟩)
    exact ⟨ρ', h1, h2, trivial⟩

theorem tv3_in : ∀ e ∈ [tv 0, tv 1, tv 2], e.In {x | ∃ i < 3, x = Variable.new i} := by
  intro e he
  simp only [List.mem_cons, List.not_mem_nil, or_false] at he
  rcases he with rfl | rfl | rfl <;> exact tv_in (by norm_num)

/-- 100 ≤ 101 in binary. -/
example : Starts 3 (Flt.constantLeCheck [tv 0, tv 1, tv 2] [true, false, true]) ∧
    Starts 3 (Flt.enforceLeBits [tv 0, tv 1, tv 2] [true, false, true] .le) ∧
    (∀ e ∈ [tv 0, tv 1, tv 2], e.In {x | ∃ i < 3, x = Variable.new i}) ∧
    [tv 0, tv 1, tv 2].map (FlatExpr.val (tableAssignment [1, 0, 0])) = [true, false, false].map boolF ∧
    natBE [true, false, false] ≤ natBE [true, false, true] :=
  ⟨starts (by decide +kernel), starts (by decide +kernel), tv3_in, by decide +kernel, by decide⟩

/-! ### C16 -/

/-- **C16**. A new decomposition into `n` bits, `2^n ≤ p`, can be satisfied, by an honest prover, exactly when the value is
below `2^n`; the bits are then the binary digits. The error `ShaXor` is reserved for bits of hash functions, whose
conditions define variables; no caller passes it. -/
theorem C16_bits_iff {f : FlatExpr (ZMod p)} {n : ℕ} {err : RuntimeError} {bits : List (FlatExpr (ZMod p))}
    (hf : ∀ x, f ≠ .value x) (hc : st.cache f = none) (hn : 2 ^ n ≤ p) (herr : err ≠ .shaXor)
    (h : Flt.getBits (Flt.withField f) n n err st = some (bits, st')) (hr : Ready sem A D ρ st) (hin : f.In D) :
    Completes sem D ρ st' (fun ρ' => bits.map (FlatExpr.val ρ') = (bitsBE n (f.val ρ).val).map boolF) ↔
      (f.val ρ).val < 2 ^ n := by
  constructor
  · rintro ⟨ρ', h1, h2, -⟩
    have := (C16_bits_unique hf hc hn h h2.satF).1
    rwa [In.val_congr hin h1] at this
  · intro hlt
    obtain ⟨g1, g2⟩ := getBits_miss hf hc h
    obtain ⟨ρ', h1, h2, -⟩ := complete_indep (Indep.freshBits f n n err) hr g1 (Scp.freshBits n n herr hin)
      (fun ρ' => Cmp.freshBits f n n err le_rfl g2 (pre := True))
      (fun ρ' hρ => ⟨trivial, by rw [In.val_congr hin hρ]; exact hlt⟩)
    refine ⟨ρ', h1, h2, ?_⟩
    have := (C16_bits_unique hf hc hn h h2.satF).2
    rwa [In.val_congr hin h1] at this

/-- **C16** (completeness). A new decomposition at the full width of the field, with the check against `p - 1`, can always
be satisfied by an honest prover. -/
theorem C16_full_width_complete (hp : 2 < p) {f : FlatExpr (ZMod p)} {err err' : RuntimeError}
    {bits : List (FlatExpr (ZMod p))} (hf : ∀ x, f ≠ .value x) (hc : st.cache f = none) (herr : err ≠ .shaXor)
    (h : (do
      let bits ← Flt.getBits (Flt.withField f) (requiredBits p) (requiredBits p) err
      Flt.enforceLeBits bits (toBitsBe (maxValue p)) err'
      pure bits : FlatM p Z _) st = some (bits, st')) (hr : Ready sem A D ρ st) (hin : f.In D) :
    Completes sem D ρ st'
      (fun ρ' => bits.map (FlatExpr.val ρ') = (bitsBE (requiredBits p) (f.val ρ).val).map boolF) := by
  have hrun : (do
      let bits ← Flt.freshBits f (requiredBits p) (requiredBits p) err
      Flt.enforceLeBits bits (toBitsBe (maxValue p)) err'
      pure bits : FlatM p Z _) st = some (bits, st') := by
    obtain ⟨bits', st1, h1, h2⟩ := FlatM.bind_some' h
    obtain ⟨g1, g2⟩ := getBits_miss hf hc h1
    show (Flt.freshBits f (requiredBits p) (requiredBits p) err st).bind _ = _
    rw [g1]
    exact h2
  have hlt : ∀ ρ' : Assignment (ZMod p), (f.val ρ').val < 2 ^ requiredBits p :=
    fun ρ' => lt_trans (val_lt _) lt_two_pow_required
  have hi := (Indep.freshBits f (requiredBits p) (requiredBits p) err (Z := Z)).bind fun bits =>
    (Indep.enforceLeBits bits (toBitsBe (maxValue p)) err').bind fun _ => Indep.pure bits
  obtain ⟨ρ', h1, h2, -⟩ := complete_indep (Q := fun _ _ => True) (P := fun _ _ => True) (pre := fun _ => True) hi hr hrun
    ((Scp.freshBits _ _ herr hin).bind fun bs E' _ hb => (Scp.enforceLeBits _ err' hb).bind fun _ E'' _ _ =>
      Scp.pure fun _ _ => trivial)
    (fun ρ' => Cmp.bind ((Cmp.freshBits f _ _ err le_rfl le_rfl (pre := True)).pre_of fun _ => ⟨trivial, hlt ρ'⟩)
      fun bs => Cmp.bind ((Cmp.enforceLeBits bs _ (bitsBE (requiredBits p) (f.val ρ').val) err' (pre := True)).pre_of
        fun hb => ⟨⟨trivial, by
          rw [natBE_bitsBE_of_lt (hlt ρ'), natBE_toBitsBe, val_maxValue]
          have := val_lt (f.val ρ')
          omega⟩, hb.2⟩) fun _ => Cmp.pure fun _ => trivial) (fun _ _ => trivial)
  refine ⟨ρ', h1, h2, ?_⟩
  have := C16_full_width hp hf hc h h2.satF
  rwa [In.val_congr hin h1] at this

example : Starts 1 (Flt.getBits (Flt.withField (tv 0)) 3 3 .sum) ∧ (tv 0).In {x | ∃ i < 1, x = Variable.new i} ∧
    (startState 97 Unit 1).cache (tv 0) = none ∧ (∀ x, tv 0 ≠ .value x) ∧ 2 ^ 3 ≤ 97 ∧ RuntimeError.sum ≠ .shaXor :=
  ⟨starts (by decide +kernel), tv_in (by norm_num), rfl, (fun x h => by cases h), by norm_num, by decide⟩

example : Starts 1 (do
      let bits ← Flt.getBits (Flt.withField (tv 0)) (requiredBits 97) (requiredBits 97) .sum
      Flt.enforceLeBits bits (toBitsBe (maxValue 97)) .le
      pure bits) := starts (by decide +kernel)

/-! ### C17 -/

/-- **C17** (completeness, `e < c`). -/
theorem C17_lt_constant_complete_partial (hp : 2 < p) {e r : FlatExpr (ZMod p)} {c : ZMod p}
    (h : Flt.constantLt e c st = some (r, st')) (hr : Ready sem A D ρ st) (hin : e.In D) (hcl : st'.clash = false) :
    Completes sem D ρ st' (fun ρ' => r.val ρ' = if (e.val ρ).val < c.val then 1 else 0) := by
  obtain ⟨ρ', h1, h2, h3⟩ := complete (pre := fun _ => True) hr h hcl (Scp.constantLt c hin)
    (fun ρ' => (Cmp.constantLt e c).snd (Sound.constantLt (pre := True) hp e c) (fun _ => trivial)) (fun _ _ => trivial)
  refine ⟨ρ', h1, h2, ?_⟩
  show r.val ρ' = _
  rw [h3, In.val_congr hin h1]; unfold boolF; simp

/-- **C17** (field `l < r`). The constraints can be satisfied, by an honest prover, exactly when one operand is a constant
or both are below `2^(bits - 2)`. -/
theorem C17_field_lt_iff_partial (hp : 2 < p) {l r e : FlatExpr (ZMod p)}
    (h : Flt.fieldLtCheck l r st = some (e, st')) (hr : Ready sem A D ρ st) (hl : l.In D) (hri : r.In D)
    (hcl : st'.clash = false) :
    Completes sem D ρ st' (fun ρ' => e.val ρ' = if (l.val ρ).val < (r.val ρ).val then 1 else 0) ↔
      ((∀ c, l ≠ .value c) → (∀ c, r ≠ .value c) →
        (l.val ρ).val < 2 ^ (requiredBits p - 2) ∧ (r.val ρ).val < 2 ^ (requiredBits p - 2)) := by
  constructor
  · rintro ⟨ρ', h1, h2, -⟩
    have := (C17_field_lt_partial hp h (hr.congr h1).digits.ok h2.satF hcl).2
    rwa [In.val_congr hl h1, In.val_congr hri h1] at this
  · intro hb
    obtain ⟨ρ', h1, h2, h3⟩ := complete hr h hcl (Scp.fieldLtCheck hl hri)
      (fun ρ' => (Cmp.fieldLtCheck l r (pre := True)).snd (Sound.fieldLtCheck (pre := True) hp l r) (fun _ => trivial))
      (fun ρ' hρ => ⟨trivial, by
        by_cases g1 : ∃ c, l = .value c
        · exact Or.inl g1
        by_cases g2 : ∃ c, r = .value c
        · exact Or.inr (Or.inl g2)
        have := hb (fun c hc => g1 ⟨c, hc⟩) (fun c hc => g2 ⟨c, hc⟩)
        rw [In.val_congr hl hρ, In.val_congr hri hρ]
        exact Or.inr (Or.inr this)⟩)
    refine ⟨ρ', h1, h2, ?_⟩
    show e.val ρ' = _
    rw [h3.1, In.val_congr hl h1, In.val_congr hri h1]; unfold boolF; simp

/-- **C17** (completeness, `l < r` for integers of `w` bits). -/
theorem C17_uint_lt_complete_partial (hp : 2 < p) {l r e : FlatExpr (ZMod p)} {w : ℕ} (hw : w + 1 < requiredBits p)
    (h : Flt.ltCheck l r w st = some (e, st')) (hr : Ready sem A D ρ st) (hl : l.In D) (hri : r.In D)
    (hlw : (l.val ρ).val < 2 ^ w) (hrw : (r.val ρ).val < 2 ^ w) (hcl : st'.clash = false) :
    Completes sem D ρ st' (fun ρ' => e.val ρ' = if (l.val ρ).val < (r.val ρ).val then 1 else 0) := by
  obtain ⟨ρ', h1, h2, -⟩ := complete hr h hcl (Scp.ltCheck w hl hri)
    (fun ρ' => Cmp.ltCheck l r w hw (pre := True))
    (fun ρ' hρ => ⟨trivial, fun _ _ => by rw [In.val_congr hl hρ, In.val_congr hri hρ]; exact ⟨hlw, hrw⟩⟩)
  refine ⟨ρ', h1, h2, ?_⟩
  have e1 := In.val_congr hl h1
  have e2 := In.val_congr hri h1
  have := C17_uint_lt_partial hp hw h (by rwa [e1]) (by rwa [e2]) (hr.congr h1).digits.ok h2.satF hcl
  rwa [e1, e2] at this

/-- **C17** (completeness, `l <= r` for integers of `w` bits). -/
theorem C17_uint_le_complete_partial (hp : 2 < p) {l r e : FlatExpr (ZMod p)} {w : ℕ} (hw : w + 1 < requiredBits p)
    (h : Flt.leCheck l r w st = some (e, st')) (hr : Ready sem A D ρ st) (hl : l.In D) (hri : r.In D)
    (hlw : (l.val ρ).val < 2 ^ w) (hrw : (r.val ρ).val < 2 ^ w) (hcl : st'.clash = false) :
    Completes sem D ρ st' (fun ρ' => e.val ρ' = if (l.val ρ).val ≤ (r.val ρ).val then 1 else 0) := by
  obtain ⟨ρ', h1, h2, -⟩ := complete hr h hcl (Scp.leCheck w hl hri)
    (fun ρ' => Cmp.leCheck l r w hw (pre := True))
    (fun ρ' hρ => ⟨trivial, fun _ _ => by rw [In.val_congr hl hρ, In.val_congr hri hρ]; exact ⟨hlw, hrw⟩⟩)
  refine ⟨ρ', h1, h2, ?_⟩
  have e1 := In.val_congr hl h1
  have e2 := In.val_congr hri h1
  have := C17_uint_le_partial hp hw h (by rwa [e1]) (by rwa [e2]) (hr.congr h1).digits.ok h2.satF hcl
  rwa [e1, e2] at this

/-- **C17** (`assert(e < c)`). The constraints can be satisfied, by an honest prover, exactly when `e` is below the
constant. -/
theorem C17_enforced_lt_iff_partial (hp : 2 < p) {e : FlatExpr (ZMod p)} {c : ZMod p} {err : RuntimeError} {u : Unit}
    (h : Flt.enforceConstantLt e c err st = some (u, st')) (he : ∀ x, e ≠ .value x) (herr : err ≠ .shaXor)
    (hr : Ready sem A D ρ st) (hin : e.In D) (hcl : st'.clash = false) :
    Completes sem D ρ st' (fun _ => True) ↔ (e.val ρ).val < c.val := by
  constructor
  · rintro ⟨ρ', h1, h2, -⟩
    have := C17_enforced_lt_partial hp h he (hr.congr h1).digits.ok h2.satF hcl
    rwa [In.val_congr hin h1] at this
  · intro hlt
    obtain ⟨ρ', h1, h2, -⟩ := complete hr h hcl (Scp.enforceConstantLt c herr hin)
      (fun ρ' => Cmp.enforceConstantLt e c err (pre := True))
      (fun ρ' hρ => ⟨trivial, by rw [In.val_congr hin hρ]; exact hlt⟩)
    exact ⟨ρ', h1, h2, trivial⟩

example : Starts 1 (Flt.constantLt (tv 0) 5) ∧ Starts 2 (Flt.fieldLtCheck (tv 0) (tv 1)) ∧
    Starts 2 (Flt.ltCheck (tv 0) (tv 1) 2) ∧ Starts 2 (Flt.leCheck (tv 0) (tv 1) 2) ∧
    Starts 1 (Flt.enforceConstantLt (tv 0) 20 .le) :=
  ⟨starts (by decide +kernel), starts (by decide +kernel), starts (by decide +kernel), starts (by decide +kernel),
    starts (by decide +kernel)⟩

/-! ### C18 -/

/-- **C18**. The constraints for a division of integers of `w` bits can be satisfied, by an honest prover, exactly when the
divisor is not zero; quotient and remainder are then right. -/
theorem C18_euclid_iff_partial (hp : 2 < p) {w : ℕ} {n d : FlatExpr (ZMod p)} {q r : Variable}
    (hw : 2 * w + 2 ≤ requiredBits p) (h : Flt.euclid w n d st = some ((q, r), st')) (hr : Ready sem A D ρ st)
    (hni : n.In D) (hdi : d.In D) (hn : (n.val ρ).val < 2 ^ w) (hd : (d.val ρ).val < 2 ^ w) (hcl : st'.clash = false) :
    Completes sem D ρ st' (fun ρ' => (ρ' q).val = (n.val ρ).val / (d.val ρ).val ∧
      (ρ' r).val = (n.val ρ).val % (d.val ρ).val) ↔ d.val ρ ≠ 0 := by
  constructor
  · rintro ⟨ρ', h1, h2, -⟩
    have e1 := In.val_congr hni h1
    have e2 := In.val_congr hdi h1
    have := (C18_euclid_sound_partial hp hw h (by rwa [e1]) (by rwa [e2]) (hr.congr h1).digits.ok h2.satF hcl).1
    rw [e2] at this
    intro h0
    rw [h0] at this
    simp at this
  · intro h0
    obtain ⟨ρ', h1, h2, -⟩ := complete hr h hcl (Scp.euclid w hni hdi) (fun ρ' => Cmp.euclid w n d hw (pre := True))
      (fun ρ' hρ => ⟨trivial, by rw [In.val_congr hni hρ, In.val_congr hdi hρ]; exact ⟨hn, hd, h0⟩⟩)
    refine ⟨ρ', h1, h2, ?_⟩
    have e1 := In.val_congr hni h1
    have e2 := In.val_congr hdi h1
    have := (C18_euclid_sound_partial hp hw h (by rwa [e1]) (by rwa [e2]) (hr.congr h1).digits.ok h2.satF hcl).2
    rwa [e1, e2] at this

example : Starts 2 (Flt.euclid 2 (tv 0) (tv 1)) := starts (by decide +kernel)

/-! ### C19, C20, C21 -/

/-- If the circuit variables represent the source values, they still do when the prover goes on. -/
theorem EnvOk.congr (h : EnvOk Γ env st.layout ρ) (hl : ∀ x v, st.layout x = some v → v ∈ D)
    {ρ' : Assignment (ZMod p)} (hρ : ∀ x ∈ D, ρ' x = ρ x) : EnvOk Γ env st.layout ρ' := by
  intro x k hx
  obtain ⟨v, h1, h2⟩ := h x k hx
  refine ⟨v, h1, ?_⟩
  have e := hρ v (hl x v h1)
  cases k <;> simp only [VarOk, e] at h2 ⊢ <;> exact h2

/-- **C20** (completeness). If the field expression has a value, an honest prover can satisfy the constraints, and the result
is that value. -/
theorem C20_field_expression_complete_partial (hp : 2 < p) {e : FExpr (ZMod p)} (he : OkF Γ e)
    (henv : EnvOk Γ env st.layout ρ) {a : FlatExpr (ZMod p)} (hm : Flt.flattenF e st = some (a, st'))
    (hr : Ready sem A D ρ st) (hcl : st'.clash = false) {v : ZMod p} (hv : evalF env e = .ok v) :
    Completes sem D ρ st' (fun ρ' => a.val ρ' = v) := by
  obtain ⟨ρ', h1, h2, h3⟩ := complete (pre := fun ρ' => EnvOk Γ env st.layout ρ') (P := fun ρ' a => a.val ρ' = v) hr hm hcl
    (Scp.flattenF e) (fun ρ' => Cmp.intro (Mono.flattenF e) fun henv' => (cmpF_of_ok hp henv' he v hv True).post
      fun _ _ h => h.1) (fun ρ' hρ => henv.congr hr.layout hρ)
  exact ⟨ρ', h1, h2, h3⟩

/-- **C19** (completeness). If the boolean expression has a value, an honest prover can satisfy the constraints, and the
result is that value. -/
theorem C19_bool_expression_complete_partial (hp : 2 < p) {e : BExpr (ZMod p)} (he : OkB Γ e)
    (henv : EnvOk Γ env st.layout ρ) {a : FlatExpr (ZMod p)} (hm : Flt.flattenB e st = some (a, st'))
    (hr : Ready sem A D ρ st) (hcl : st'.clash = false) {b : Bool} (hv : evalB env e = .ok b) :
    Completes sem D ρ st' (fun ρ' => a.val ρ' = if b then 1 else 0) := by
  obtain ⟨ρ', h1, h2, h3⟩ := complete (pre := fun ρ' => EnvOk Γ env st.layout ρ') (P := fun ρ' a => a.val ρ' = boolF b)
    hr hm hcl (Scp.flattenB e) (fun ρ' => Cmp.intro (Mono.flattenB e) fun henv' => cmpB_of_ok hp henv' he b hv True)
    (fun ρ' hρ => henv.congr hr.layout hρ)
  exact ⟨ρ', h1, h2, h3⟩

/-- **C21** (completeness). If the integer expression has a value, an honest prover can satisfy the constraints, and the
result represents that value as in C21. -/
theorem C21_uint_expression_complete_partial (hp : 2 < p) {e : UExpr (ZMod p)} (he : OkU Γ e)
    (henv : EnvOk Γ env st.layout ρ) {u : FlatU p} (hm : Flt.flattenU e st = some (u, st'))
    (hr : Ready sem A D ρ st) (hcl : st'.clash = false) {n : ℕ} (hv : evalU env e = .ok n) :
    Completes sem D ρ st' (fun ρ' =>
      (∀ f, u.field = some f → (f.val ρ').val % 2 ^ e.width = n ∧ (f.val ρ').val ≤ e.amax) ∧
      (∀ bs, u.bits = some bs → bs.map (FlatExpr.val ρ') = (bitsBE e.width n).map boolF) ∧
      (e.Reduced → (∃ f, u.field = some f ∧ (f.val ρ').val = n) ∧ ∃ bs, u.bits = some bs)) := by
  obtain ⟨ρ', h1, h2, h3⟩ := complete (pre := fun ρ' => EnvOk Γ env st.layout ρ') (P := fun _ _ => True)
    hr hm hcl (Scp.flattenU e) (fun ρ' => Cmp.intro (Mono.flattenU e) fun henv' =>
      (cmpU_of_ok hp henv' he n hv True).drop) (fun ρ' hρ => henv.congr hr.layout hρ)
  refine ⟨ρ', h1, h2, ?_⟩
  rcases C21_uint_expression_partial hp he (henv.congr hr.layout h1) hm (hr.congr h1).digits.ok h2.satF hcl with h | h
  · rw [hv] at h; cases h
  · obtain ⟨n', g1, -, g2⟩ := h
    rw [hv] at g1
    cases g1
    exact g2

end Zok
