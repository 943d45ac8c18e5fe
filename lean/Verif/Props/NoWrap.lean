import Verif.Props.EndToEnd
import Verif.Props.EndToEndExamples

/-
C17, C18, C20, C23, C24, C43 without the `clash` flag. The flag records that the flattener took a truncated decomposition
from its cache for a whole one. It stays down when there are no truncated decompositions: in programs in which no unsigned
integer wraps around (`Spec/NoTrunc.lean`), and for gadgets that find no truncated decomposition in the cache (`WholeBits`).
-/

set_option linter.unusedSectionVars false

namespace Zok
variable {p : ℕ} {Z : Type} [Fact p.Prime] {sem : SolverSem (ZMod p) Z}
variable {A D : Set Variable} {ρ : Assignment (ZMod p)} {st st' : FlState p Z} {Γ : Ctx} {env : ZEnv p}
variable {f : ZFun (ZMod p) Z} {P P' : Prog (ZMod p) Z} [DecidableEq Z] {hash : Stmt (ZMod p) Z → ℕ}

open FlatExpr Fld

theorem WholeBits.run {α : Type} {m : FlatM p Z α} {a : α} (hw : WholeBits st) (hm : Pre False True m)
    (h : m st = some (a, st')) : WholeBits st' :=
  have := hm _ _ _ h ⟨fun h => h.elim, fun _ => hw.clash, fun _ => hw.whole⟩
  ⟨this.clash trivial, this.exact trivial⟩

/-- In the initial state there are no decompositions at all. -/
theorem wholeBits_init : WholeBits (FlState.init p Z) := ⟨rfl, fun _ _ h => by cases h⟩

/-! ### C17 -/

/-- **C17** (soundness, `e < c`). Exact for all field elements. -/
theorem C17_lt_constant (hp : 2 < p) {e r : FlatExpr (ZMod p)} {c : ZMod p} (h : Flt.constantLt e c st = some (r, st'))
    (hw : WholeBits st) (hc : CacheOk ρ st) (hs : SatF ρ st'.out) :
    r.val ρ = if (e.val ρ).val < c.val then 1 else 0 :=
  C17_lt_constant_partial hp h hc hs (hw.run (Pre.constantLt _ _) h).clash

/-- **C17** (completeness, `e < c`). -/
theorem C17_lt_constant_complete (hp : 2 < p) {e r : FlatExpr (ZMod p)} {c : ZMod p}
    (h : Flt.constantLt e c st = some (r, st')) (hw : WholeBits st) (hr : Ready sem A D ρ st) (hin : e.In D) :
    Completes sem D ρ st' (fun ρ' => r.val ρ' = if (e.val ρ).val < c.val then 1 else 0) :=
  C17_lt_constant_complete_partial hp h hr hin (hw.run (Pre.constantLt _ _) h).clash

/-- **C17** (soundness, field `l < r`, including constants on either side). The result is exact; and when both operands
are dynamic the constraints can only be satisfied if both are below `2^(bits - 2)`. -/
theorem C17_field_lt (hp : 2 < p) {l r e : FlatExpr (ZMod p)} (h : Flt.fieldLtCheck l r st = some (e, st'))
    (hw : WholeBits st) (hc : CacheOk ρ st) (hs : SatF ρ st'.out) :
    (e.val ρ = if (l.val ρ).val < (r.val ρ).val then 1 else 0) ∧
    ((∀ c, l ≠ .value c) → (∀ c, r ≠ .value c) →
      (l.val ρ).val < 2 ^ (requiredBits p - 2) ∧ (r.val ρ).val < 2 ^ (requiredBits p - 2)) :=
  C17_field_lt_partial hp h hc hs (hw.run (Pre.fieldLtCheck _ _) h).clash

/-- **C17** (field `l < r`). The constraints can be satisfied, by an honest prover, exactly when one operand is a constant
or both are below `2^(bits - 2)`. -/
theorem C17_field_lt_iff (hp : 2 < p) {l r e : FlatExpr (ZMod p)} (h : Flt.fieldLtCheck l r st = some (e, st'))
    (hw : WholeBits st) (hr : Ready sem A D ρ st) (hl : l.In D) (hri : r.In D) :
    Completes sem D ρ st' (fun ρ' => e.val ρ' = if (l.val ρ).val < (r.val ρ).val then 1 else 0) ↔
      ((∀ c, l ≠ .value c) → (∀ c, r ≠ .value c) →
        (l.val ρ).val < 2 ^ (requiredBits p - 2) ∧ (r.val ρ).val < 2 ^ (requiredBits p - 2)) :=
  C17_field_lt_iff_partial hp h hr hl hri (hw.run (Pre.fieldLtCheck _ _) h).clash

/-- **C17** (soundness, `l < r` for integers of `w` bits). Exact when the operands are in range. -/
theorem C17_uint_lt (hp : 2 < p) {l r e : FlatExpr (ZMod p)} {w : ℕ} (hwp : w + 1 < requiredBits p)
    (h : Flt.ltCheck l r w st = some (e, st')) (hl : (l.val ρ).val < 2 ^ w) (hr : (r.val ρ).val < 2 ^ w)
    (hw : WholeBits st) (hc : CacheOk ρ st) (hs : SatF ρ st'.out) :
    e.val ρ = if (l.val ρ).val < (r.val ρ).val then 1 else 0 :=
  C17_uint_lt_partial hp hwp h hl hr hc hs (hw.run (Pre.ltCheck _ _ _) h).clash

/-- **C17** (completeness, `l < r` for integers of `w` bits). -/
theorem C17_uint_lt_complete (hp : 2 < p) {l r e : FlatExpr (ZMod p)} {w : ℕ} (hwp : w + 1 < requiredBits p)
    (h : Flt.ltCheck l r w st = some (e, st')) (hw : WholeBits st) (hr : Ready sem A D ρ st) (hl : l.In D) (hri : r.In D)
    (hlw : (l.val ρ).val < 2 ^ w) (hrw : (r.val ρ).val < 2 ^ w) :
    Completes sem D ρ st' (fun ρ' => e.val ρ' = if (l.val ρ).val < (r.val ρ).val then 1 else 0) :=
  C17_uint_lt_complete_partial hp hwp h hr hl hri hlw hrw (hw.run (Pre.ltCheck _ _ _) h).clash

/-- **C17** (soundness, `l <= r` for integers of `w` bits). -/
theorem C17_uint_le (hp : 2 < p) {l r e : FlatExpr (ZMod p)} {w : ℕ} (hwp : w + 1 < requiredBits p)
    (h : Flt.leCheck l r w st = some (e, st')) (hl : (l.val ρ).val < 2 ^ w) (hr : (r.val ρ).val < 2 ^ w)
    (hw : WholeBits st) (hc : CacheOk ρ st) (hs : SatF ρ st'.out) :
    e.val ρ = if (l.val ρ).val ≤ (r.val ρ).val then 1 else 0 :=
  C17_uint_le_partial hp hwp h hl hr hc hs (hw.run (Pre.leCheck _ _ _) h).clash

/-- **C17** (completeness, `l <= r` for integers of `w` bits). -/
theorem C17_uint_le_complete (hp : 2 < p) {l r e : FlatExpr (ZMod p)} {w : ℕ} (hwp : w + 1 < requiredBits p)
    (h : Flt.leCheck l r w st = some (e, st')) (hw : WholeBits st) (hr : Ready sem A D ρ st) (hl : l.In D) (hri : r.In D)
    (hlw : (l.val ρ).val < 2 ^ w) (hrw : (r.val ρ).val < 2 ^ w) :
    Completes sem D ρ st' (fun ρ' => e.val ρ' = if (l.val ρ).val ≤ (r.val ρ).val then 1 else 0) :=
  C17_uint_le_complete_partial hp hwp h hr hl hri hlw hrw (hw.run (Pre.leCheck _ _ _) h).clash

/-- **C17** (`assert(e < c)`). The constraints can be satisfied, by an honest prover, exactly when `e` is below the
constant. -/
theorem C17_enforced_lt_iff (hp : 2 < p) {e : FlatExpr (ZMod p)} {c : ZMod p} {err : RuntimeError} {u : Unit}
    (h : Flt.enforceConstantLt e c err st = some (u, st')) (he : ∀ x, e ≠ .value x) (herr : err ≠ .shaXor)
    (hw : WholeBits st) (hr : Ready sem A D ρ st) (hin : e.In D) :
    Completes sem D ρ st' (fun _ => True) ↔ (e.val ρ).val < c.val :=
  C17_enforced_lt_iff_partial hp h he herr hr hin (hw.run (Pre.enforceConstantLt _ _ _) h).clash

/-- **C17** (soundness, `assert(e < c)`). -/
theorem C17_enforced_lt (hp : 2 < p) {e : FlatExpr (ZMod p)} {c : ZMod p} {err : RuntimeError} {u : Unit}
    (h : Flt.enforceConstantLt e c err st = some (u, st')) (he : ∀ x, e ≠ .value x) (hw : WholeBits st)
    (hc : CacheOk ρ st) (hs : SatF ρ st'.out) : (e.val ρ).val < c.val :=
  C17_enforced_lt_partial hp h he hc hs (hw.run (Pre.enforceConstantLt _ _ _) h).clash

/-! ### C18 -/

/-- **C18** (soundness). -/
theorem C18_euclid_sound (hp : 2 < p) {w : ℕ} {n d : FlatExpr (ZMod p)} {q r : Variable}
    (hwp : 2 * w + 2 ≤ requiredBits p) (h : Flt.euclid w n d st = some ((q, r), st'))
    (hn : (n.val ρ).val < 2 ^ w) (hd : (d.val ρ).val < 2 ^ w)
    (hw : WholeBits st) (hc : CacheOk ρ st) (hs : SatF ρ st'.out) :
    (d.val ρ).val ≠ 0 ∧ (ρ q).val = (n.val ρ).val / (d.val ρ).val ∧ (ρ r).val = (n.val ρ).val % (d.val ρ).val :=
  C18_euclid_sound_partial hp hwp h hn hd hc hs (hw.run (Pre.euclid _ _ _) h).clash

/-- **C18**. The constraints for a division of integers of `w` bits can be satisfied, by an honest prover, exactly when the
divisor is not zero; quotient and remainder are then right. -/
theorem C18_euclid_iff (hp : 2 < p) {w : ℕ} {n d : FlatExpr (ZMod p)} {q r : Variable}
    (hwp : 2 * w + 2 ≤ requiredBits p) (h : Flt.euclid w n d st = some ((q, r), st')) (hw : WholeBits st)
    (hr : Ready sem A D ρ st) (hni : n.In D) (hdi : d.In D) (hn : (n.val ρ).val < 2 ^ w) (hd : (d.val ρ).val < 2 ^ w) :
    Completes sem D ρ st' (fun ρ' => (ρ' q).val = (n.val ρ).val / (d.val ρ).val ∧
      (ρ' r).val = (n.val ρ).val % (d.val ρ).val) ↔ d.val ρ ≠ 0 :=
  C18_euclid_iff_partial hp hwp h hr hni hdi hn hd (hw.run (Pre.euclid _ _ _) h).clash

/-- The initial states of the examples of C17 and C18 have no decompositions. -/
theorem start_wholeBits (n : ℕ) : WholeBits (startState 97 Unit n) := ⟨rfl, fun _ _ h => by cases h⟩

example : WholeBits (startState 97 Unit 2) ∧ Starts 2 (Flt.fieldLtCheck (tv 0) (tv 1)) ∧
    Starts 2 (Flt.euclid 2 (tv 0) (tv 1)) :=
  ⟨start_wholeBits 2, starts (by decide +kernel), starts (by decide +kernel)⟩

/-! ### C19–C21 -/

/-- **C19** (soundness), without wrap-around. -/
theorem C19_no_wrap_partial (hp : 2 < p) {e : BExpr (ZMod p)} (he : OkB Γ e) (hn : e.NoWrap)
    (henv : EnvOk Γ env st.layout ρ) {a : FlatExpr (ZMod p)} (hm : Flt.flattenB e st = some (a, st'))
    (hw : WholeBits st) (hc : CacheOk ρ st) (hs : SatF ρ st'.out) :
    evalB env e = .error .divZero ∨ ∃ b, evalB env e = .ok b ∧ a.val ρ = if b then 1 else 0 :=
  C19_bool_expression_partial hp he henv hm hc hs (hw.run (Pre.flattenB e fun _ => hn) hm).clash

/-- **C19** (completeness), without wrap-around. -/
theorem C19_no_wrap_complete_partial (hp : 2 < p) {e : BExpr (ZMod p)} (he : OkB Γ e) (hn : e.NoWrap)
    (henv : EnvOk Γ env st.layout ρ) {a : FlatExpr (ZMod p)} (hm : Flt.flattenB e st = some (a, st'))
    (hr : Ready sem A D ρ st) (hw : WholeBits st) {b : Bool} (hv : evalB env e = .ok b) :
    Completes sem D ρ st' (fun ρ' => a.val ρ' = if b then 1 else 0) :=
  C19_bool_expression_complete_partial hp he henv hm hr (hw.run (Pre.flattenB e fun _ => hn) hm).clash hv

/-- **C20** (soundness). The flattened expression has the value of the source expression, unless that divides by zero. -/
theorem C20_field_expression (hp : 2 < p) {e : FExpr (ZMod p)} (he : OkF Γ e) (hn : e.NoWrap)
    (henv : EnvOk Γ env st.layout ρ) {a : FlatExpr (ZMod p)} (hm : Flt.flattenF e st = some (a, st'))
    (hw : WholeBits st) (hc : CacheOk ρ st) (hs : SatF ρ st'.out) :
    evalF env e = .error .divZero ∨ evalF env e = .ok (a.val ρ) :=
  C20_field_expression_partial hp he henv hm hc hs (hw.run (Pre.flattenF e fun _ => hn) hm).clash

/-- **C20** (completeness). -/
theorem C20_field_expression_complete (hp : 2 < p) {e : FExpr (ZMod p)} (he : OkF Γ e) (hn : e.NoWrap)
    (henv : EnvOk Γ env st.layout ρ) {a : FlatExpr (ZMod p)} (hm : Flt.flattenF e st = some (a, st'))
    (hr : Ready sem A D ρ st) (hw : WholeBits st) {v : ZMod p} (hv : evalF env e = .ok v) :
    Completes sem D ρ st' (fun ρ' => a.val ρ' = v) :=
  C20_field_expression_complete_partial hp he henv hm hr (hw.run (Pre.flattenF e fun _ => hn) hm).clash hv

/-- The hypotheses hold, e.g. of `if x < 5 { x ** 3 / (x - 5) } else { 1 }`. -/
example : ∃ a st', Flt.flattenF (.cond (.fieldLt (.ident 0) (.value 5))
      (.div (.pow (.ident 0) (um 2 3 .no (.value 3))) (.sub (.ident 0) (.value 5))) (.value 1)) exSt = some (a, st') ∧
    WholeBits exSt ∧
    FExpr.NoWrap (p := 97) (.cond (.fieldLt (.ident 0) (.value 5))
      (.div (.pow (.ident 0) (um 2 3 .no (.value 3))) (.sub (.ident 0) (.value 5))) (.value 1)) := by
  have h : (Flt.flattenF (.cond (.fieldLt (.ident 0) (.value 5))
      (.div (.pow (.ident 0) (um 2 3 .no (.value 3))) (.sub (.ident 0) (.value 5))) (.value 1)) exSt).isSome = true := by
    decide +kernel
  obtain ⟨t, ht⟩ := Option.isSome_iff_exists.1 h
  refine ⟨t.1, t.2, ht, ⟨rfl, fun _ _ h => by cases h⟩, ?_⟩
  simp only [FExpr.NoWrap, BExpr.NoWrap, and_self]

/-! ### C23, C24, C43 -/

/-- **C23**. The circuit of a function in which no unsigned integer wraps around is satisfied only by executions of the
function. -/
theorem C23_no_wrap_partial (hp : 2 < p) (hf : OkFun f) (hn : ZStmt.NoWrapL f.body) {cl : Bool}
    (h : lowerProgram f = some (P, cl)) (ins outs : List (ZMod p)) (hr : Realises P ins outs) :
    Returns (Oracle.any p Z) f ins outs ∨ ∃ e, Undetected e ∧ Faults (Oracle.any p Z) f ins e := by
  rw [lower_noClash hn h] at h
  exact C23_lowered_sound_partial hp hf h ins outs hr

/-- **C24**. If a function in which no unsigned integer wraps around returns `outs` on `ins`, then executing its circuit
succeeds and returns `outs`. -/
theorem C24_no_wrap_partial (hp : 2 < p) (hf : OkFun f) (hs : SingleReturn f) (hn : ZStmt.NoWrapL f.body) {cl : Bool}
    (h : lowerProgram f = some (P, cl)) {ins outs : List (ZMod p)} (hr : Returns (Oracle.honest sem) f ins outs) :
    ExecutesTo sem P.clean ins outs := by
  rw [lower_noClash hn h] at h
  exact C24_execution_partial hp hf hs h hr

theorem compile_noClash (hn : ZStmt.NoWrapL f.body) {cl : Bool} (h : compileZir sem hash f = some (P', cl)) :
    cl = false := by
  obtain ⟨P, Q, h1, _, _⟩ := compileZir_some h
  exact lower_noClash hn h1

theorem _root_.Zok.ZStmt.noAsmL_of_oracleFree {ss : List (ZStmt (ZMod p) Z)} (h : ZStmt.OracleFreeL ss) :
    ZStmt.NoAsmL ss := by
  have key : ∀ n, (∀ s : ZStmt (ZMod p) Z, sizeOf s < n → s.OracleFree → s.NoAsm) ∧
      (∀ ss : List (ZStmt (ZMod p) Z), sizeOf ss < n → ZStmt.OracleFreeL ss → ZStmt.NoAsmL ss) := by
    intro n
    induction n with
    | zero => exact ⟨fun _ h => by omega, fun _ h => by omega⟩
    | succ n ih =>
      refine ⟨fun s hs h => ?_, fun ss hs h => ?_⟩
      · cases s <;> simp only [ZStmt.NoAsm, ZStmt.OracleFree] at h ⊢
        case ifElse c t e =>
          simp at hs
          exact ⟨ih.2 t (by omega) h.1, ih.2 e (by omega) h.2⟩
      · cases ss with
        | nil => simp only [ZStmt.NoAsmL]
        | cons s ss =>
          simp at hs
          rw [ZStmt.OracleFreeL] at h
          rw [ZStmt.NoAsmL]
          exact ⟨ih.1 s (by omega) h.1, ih.2 ss (by omega) h.2⟩
  exact (key _).2 ss (Nat.lt_succ_self _) h

/-- **C43**. For a function without wrap-around which leaves no choice to the prover, and arguments on which it neither
divides field elements by zero nor uses a field element other than 0 and 1 as a boolean: the compiled circuit can be
satisfied, and executed, with arguments `ins` and outputs `outs` if and only if the source function returns `outs` on
`ins`. -/
theorem C43_no_wrap_partial (hp : 2 < p) (hf : OkFun f) (hs : SingleReturn f) (hn : ZStmt.NoWrapL f.body)
    (ho : ZStmt.OracleFreeL f.body) {cl : Bool} (h : compileZir sem hash f = some (P', cl))
    (hh : ∀ P cl, lowerProgram f = some (P, cl) → HashSeparatesRun sem hash P) {O : Oracle p Z}
    {ins outs : List (ZMod p)} (hu : ∀ e, Undetected e → ¬ Faults (Oracle.any p Z) f ins e) :
    (Realises P' ins outs ↔ Returns O f ins outs) ∧ (ExecutesTo sem P' ins outs ↔ Returns O f ins outs) := by
  rw [compile_noClash hn h] at h
  exact C43_iff_partial hp hf hs (ZStmt.noAsmL_of_oracleFree ho) ho h hh hu

/-- ```
def main(private field x, u2 i, private bool b) -> field {
    field y = x * x;
    assert(y == 9 && b);
    return i < 2 ? y : 1 / x;
}
``` -/
def exG : ZFun (ZMod 97) Unit where
  params := [⟨0, .field, true⟩, ⟨1, .uint 2, false⟩, ⟨2, .bool, true⟩]
  returnCount := 1
  body := [
    .definition 3 (.field (.mult (.ident 0) (.ident 0))),
    .assertion (.and (.fieldEq (.ident 3) (.value 9)) (.ident 2)) (.sourceAssertion "x * x == 9 && b"),
    .ret [.field (.cond (.uintLt (um 2 3 .yes (.ident 1)) (um 2 2 .yes (.value 2))) (.ident 3)
        (.div (.value 1) (.ident 0)))]]

theorem exG_ok : OkFun exG := by
  refine ⟨by decide +kernel, [_, _], _, _, rfl, rfl, .cons (.definition ?_) (.cons (.assertion ?_ ?_) (.cons (.ret ?_) .nil))⟩
  · exact ⟨rfl, rfl⟩
  · exact ⟨⟨rfl, trivial⟩, rfl⟩
  · intro c hc
    cases hc with
    | self => exact fun h => h
    | left h => cases h with
      | self => exact fun h => h
    | right h => cases h with
      | self => exact fun h => h
  · intro e he
    simp only [List.mem_cons, List.not_mem_nil, or_false] at he
    have h1 : ∀ r, OkU (Ctx.set (Ctx.setAll (fun _ => none) [0, 1, 2] [.field, .uint 2 3, .bool]) 3 .field)
        (um 2 3 r (.ident 1)) := fun r =>
      ⟨⟨_, rfl, (by decide +kernel : (3 : ZMod 97).val < 2 ^ (Fld.requiredBits 97 - 1))⟩, by omega, by decide +kernel, 3,
        rfl, (by decide +kernel : 3 ≤ (3 : ZMod 97).val)⟩
    subst he
    refine ⟨⟨⟨h1 _, ⟨⟨_, rfl, by decide +kernel⟩, by omega, by decide +kernel, by omega, by decide +kernel⟩, rfl,
        ⟨_, rfl, rfl⟩, ⟨_, rfl, rfl⟩⟩, rfl, trivial, rfl⟩, trivial⟩

theorem exG_noWrap : ZStmt.NoWrapL exG.body := by
  have h3 : Fld.bits (3 : ZMod 97) ≤ 2 := by decide +kernel
  have h2 : Fld.bits (2 : ZMod 97) ≤ 2 := by decide +kernel
  unfold exG
  simp only [ZStmt.NoWrapL, ZStmt.NoWrap, ZExpr.NoWrap, FExpr.NoWrap, BExpr.NoWrap, UExpr.NoWrap, UInner.NoWrap, um,
    and_true, true_and, List.mem_singleton, forall_eq, UMeta.fits]
  exact ⟨fun i h _ => by cases h; exact h3, fun i h _ => by cases h; exact h2⟩

/-- The hypotheses of C23, C24, C43 are met. -/
example : OkFun exG ∧ SingleReturn exG ∧ ZStmt.NoWrapL exG.body ∧ ZStmt.OracleFreeL exG.body ∧
    ∃ hash P', compileZir exSem hash exG = some (P', false) ∧
      ∀ P cl, lowerProgram exG = some (P, cl) → HashSeparatesRun exSem hash P := by
  refine ⟨exG_ok, ⟨[_, _], _, rfl, trivial, trivial, trivial⟩, exG_noWrap, ⟨trivial, trivial, trivial, trivial⟩, ?_⟩
  exact compiles_of (by decide +kernel)

end Zok
