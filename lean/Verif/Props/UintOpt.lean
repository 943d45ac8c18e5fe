import Verif.Lemmas.UintOptPlainStmt
import Verif.Props.Compile

/-
C22: the range analysis of unsigned integers. `hf` is what the analysis does to the functions of hints.
-/

set_option linter.unusedSectionVars false

namespace Zok
open Uo
variable {p : ℕ} {Z : Type} [Fact p.Prime] {hf : Z → Ids p → Option (Z × Ids p)} {O : Oracle p Z}

/-- **C22** (the analysis does not change the program). The annotated function has the same signature, returns the same
values and fails in the same way on all arguments. No condition on the function. -/
theorem C22_meaning (hO : ∀ z ids z' ids', hf z ids = some (z', ids') → O.hint z' = O.hint z) {f g : ZFun (ZMod p) Z}
    (h : uintOptimize hf f = some g) : g.params = f.params ∧ g.returnCount = f.returnCount ∧
      (∀ ins outs, Returns O g ins outs ↔ Returns O f ins outs) ∧ ∀ ins e, Faults O g ins e ↔ Faults O f ins e := by
  obtain ⟨h1, h2, h3⟩ := uintOptimize_exec hO h
  have hi : ∀ vs : List (ZVal p), initState g vs = initState f vs := fun vs => by simp [initState, h1]
  refine ⟨h1, h2, fun ins outs => ?_, fun ins e => ?_⟩
  · unfold Returns
    simp only [h1, hi, h3]
  · unfold Faults
    simp only [h1, hi, h3]

/-- **C22** (the analysis terminates without panic) on well-typed functions whose hints do not touch integers. -/
theorem C22_no_panic (hN : ∀ z ids, ∃ z', hf z ids = some (z', ids)) {f : ZFun (ZMod p) Z} (hw : WtFun f) :
    ∃ g, uintOptimize hf f = some g := by
  obtain ⟨g, h, _⟩ := uintOptimize_ok hN hw
  exact ⟨g, h⟩

/-- **C22** (annotations). The annotations are those the flattener needs (`OkFun`): every annotated maximum is smaller
than `2^(bits-1)` and bounds the sum, product, ... of the maxima of the operands, every operand that must be reduced is
marked so; provided that shifts and subtractions are annotated correctly. -/
theorem C22_annotations_partial (hN : ∀ z ids, ∃ z', hf z ids = some (z', ids)) {f g : ZFun (ZMod p) Z} (hw : WtFun f)
    (h : uintOptimize hf f = some g) (hr : RegStmts g.body) : OkFun g := by
  obtain ⟨g', h1, h2⟩ := uintOptimize_ok hN hw
  rw [h] at h1
  cases h1
  exact h2 hr

/-- **C22** (annotations) for plain functions, those that only shift and subtract expressions of full range. -/
theorem C22_plain_annotations (hN : ∀ z ids, ∃ z', hf z ids = some (z', ids)) {f g : ZFun (ZMod p) Z} (hw : WtFun f)
    (hp : plainFun f = true) (h : uintOptimize hf f = some g) : OkFun g :=
  C22_annotations_partial hN hw h (uintOptimize_reg hN hw hp h)

/-- **C22** (the annotated maximum bounds the circuit). In every assignment that satisfies the constraints emitted for an
annotated expression (marked to be reduced or not, `b`), the field element that represents it is at most the annotated maximum, which is smaller than
`2^(bits-1)`, and it is congruent to the source value: nothing wraps around the field. `ids` is the table of the analysis,
which agrees with the types `Γ` and the bounds `K` of the variables. -/
theorem C22_bound_partial (hp2 : 2 < p) {Γ : TCtx} {ids : Ids p} {K : Ctx} (hI : IdsOk Γ ids K) {e e₁ e' : UExpr (ZMod p)}
    (hw : WtU Γ e) (h : uoU ids e = some e₁) {b : Bool} (hb : forceIf b e₁ = some e') (hr : RegU e')
    {env : ZEnv p} {ρ : Assignment (ZMod p)} {st st' : FlState p Z} (henv : EnvOk K env st.layout ρ)
    {u : FlatU p} (hm : Flt.flattenU e' st = some (u, st')) (hc : CacheOk ρ st) (hs : SatF ρ st'.out)
    (hcl : st'.clash = false) :
    e'.amax < 2 ^ (Fld.requiredBits p - 1) ∧ (evalU env e = .error .divZero ∨ ∃ n, evalU env e = .ok n ∧
      ∀ x, u.field = some x → (x.val ρ).val ≤ e'.amax ∧ (x.val ρ).val % 2 ^ e.width = n) := by
  obtain ⟨e1, h1, hF⟩ := uoU_ok hI e hw
  rw [h] at h1
  cases h1
  obtain ⟨e2, h2, h3⟩ := hF.forceIf b
  rw [hb] at h2
  cases h2
  refine ⟨h3.bound, ?_⟩
  rw [← ((uoU_same (env := env) e h).forceIf hb).1]
  rcases C21_uint_expression_partial hp2 (h3.ok hr) henv hm hc hs hcl with h6 | ⟨n, h6, _, h7, _⟩
  · exact Or.inl h6
  · exact Or.inr ⟨n, h6, fun x hx => ⟨(h7 x hx).2, by rw [← h3.width]; exact (h7 x hx).1⟩⟩

/-- **C22**, **C23**: analysis and compilation together. Every assignment that satisfies the circuit of a plain well-typed
function is an execution of the function. -/
theorem C22_compiled_sound_partial (hp2 : 2 < p) (hN : ∀ z ids, ∃ z', hf z ids = some (z', ids))
    {f g : ZFun (ZMod p) Z} (hw : WtFun f) (hp : plainFun f = true) (h : uintOptimize hf f = some g)
    {P : Prog (ZMod p) Z} (hl : lowerProgram g = some (P, false)) (ins outs : List (ZMod p)) (hr : Realises P ins outs) :
    Returns (Oracle.any p Z) f ins outs ∨ ∃ e, Undetected e ∧ Faults (Oracle.any p Z) f ins e := by
  obtain ⟨_, _, h1, h2⟩ := C22_meaning (O := Oracle.any p Z) (fun _ _ _ _ _ => rfl) h
  rcases C23_lowered_sound_partial hp2 (C22_plain_annotations hN hw hp h) hl ins outs hr with h3 | ⟨e, h3, h4⟩
  · exact Or.inl ((h1 ins outs).1 h3)
  · exact Or.inr ⟨e, h3, (h2 ins e).1 h4⟩

end Zok
