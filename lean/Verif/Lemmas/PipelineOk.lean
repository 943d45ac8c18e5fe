import Verif.Lemmas.Pipeline
import Verif.Spec.Pipeline

/-
All passes behind the propagation, one after the other.
-/

set_option linter.unusedSectionVars false

namespace Zok.Pl
open Px Dce Uo
variable {p : ℕ} {Z : Type} [Fact p.Prime]

/-- Hints are kept as they are. -/
def keep (p : ℕ) (Z : Type) : HintPasses p Z := ⟨fun z _ => z, fun z u => (z, u), fun z ids => some (z, ids)⟩

theorem keep_kept (O : Oracle p Z) : HintsKept O (keep p Z).dce :=
  ⟨fun _ _ => rfl, fun _ _ _ h => h⟩

variable {f : ZFun (ZMod p) Z} {H : HintPasses p Z}

theorem noAsm_ex (hf : Compilable f) (hx : Z → Buf p Z → Z) : ZStmt.NoAsmL (extractPanics hx f).body :=
  closedStmts closed_noAsm f.body hf.powers hf.noAsm

theorem noAsm_dce (hf : Compilable f) (hx : Z → Buf p Z → Z) (hd : Z → Used → Z × Used) :
    ZStmt.NoAsmL (eliminateDeadCode hd (extractPanics hx f)).body :=
  keepStmts hereditary_noAsm _ _ (noAsm_ex hf hx)

/-- The result does not depend on what is done to hints. -/
theorem analyse_hints (hf : Compilable f) : analyseZir H f = analyseZir (keep p Z) f := by
  have h1 : extractPanics H.extract f = extractPanics (keep p Z).extract f := by
    simp only [extractPanics, exStmts_hints H.extract (keep p Z).extract f.body hf.noAsm]
  have h2 : eliminateDeadCode H.dce (extractPanics H.extract f) = eliminateDeadCode (keep p Z).dce (extractPanics (keep p Z).extract f) := by
    rw [h1, eliminateDeadCode, eliminateDeadCode, dceStmts_hints H.dce (keep p Z).dce _ _ (noAsm_ex hf _)]
  have h3 : uintOptimize H.uint (eliminateDeadCode H.dce (extractPanics H.extract f)) =
      uintOptimize (keep p Z).uint (eliminateDeadCode (keep p Z).dce (extractPanics (keep p Z).extract f)) := by
    rw [h2, uintOptimize, uintOptimize, uoStmts_hints H.uint (keep p Z).uint _ _ (noAsm_dce hf _ _)]
  rw [analyseZir, h3, analyseZir]

/-- What the passes make of a function. -/
structure Analysed (f g : ZFun (ZMod p) Z) : Prop where
  ok : OkFun g
  ret : SingleReturn g
  noAsm : ZStmt.NoAsmL g.body
  free : ZStmt.OracleFreeL f.body → ZStmt.OracleFreeL g.body
  params : g.params = f.params
  returnCount : g.returnCount = f.returnCount
  detected : ∀ (O : Oracle p Z) ins e, Undetected e → ¬ Faults O g ins e
  fwd : ∀ (O : Oracle p Z) ins outs, Returns O f ins outs → Returns O g ins outs
  back : ∀ (O : Oracle p Z) ins outs, ZStmt.CallsOkL O (extractPanics (keep p Z).extract f).body → Returns O g ins outs →
    Returns O f ins outs ∨ ∃ e, Faults O f ins e
  faults : ∀ (O : Oracle p Z) ins, ZStmt.CallsOkL O (extractPanics (keep p Z).extract f).body → (∃ e, Faults O g ins e) → ∃ e, Faults O f ins e
  div : ∀ (O : Oracle p Z) ins, Faults O f ins .divZero → ∃ e, Faults O g ins e
  outside : ∀ (O : Oracle p Z) ins, (∃ e vs, decodeArgs f.params ins = some vs ∧ FailsOutsideL O (initState f vs) f.body e) →
    ∃ e, Faults O g ins e

theorem analyse_ok (hp : 2 < p) (hf : Compilable f) : ∃ g, analyseZir H f = some g ∧ Analysed f g := by
  rw [analyse_hints hf]
  set K := keep p Z
  have hxO : ∀ (O : Oracle p Z) z, O.hint (K.extract z []) = O.hint z := fun _ _ => rfl
  have hUO : ∀ (O : Oracle p Z) z ids z' ids', K.uint z ids = some (z', ids') → O.hint z' = O.hint z := by
    intro O z ids z' ids' h
    cases h
    rfl
  have hN : ∀ z ids, ∃ z', K.uint z ids = some (z', ids) := fun z ids => ⟨z, rfl⟩
  have w1 : WtFun (extractPanics K.extract f) := extract_wt hf.powers hf.typed
  have p1 : plainFun (extractPanics K.extract f) = true := extract_plain hf.powers hf.typed hf.plain
  have a1 : ZStmt.BranchesApartL (fun _ => []) (extractPanics K.extract f).body :=
    extract_apart (fun _ _ h => h) hf.powers hf.apart
  have n1 := noAsm_ex hf K.extract
  have u1 := argsUsedL_noAsm K.dce _ n1
  have s1 : SingleReturn (extractPanics K.extract f) := extract_singleReturn hf.powers hf.ret
  have c1 : ZStmt.NoCastL (extractPanics K.extract f).body := closedStmts closed_noCast f.body hf.powers hf.noCast
  have w2 := dce_wt (keep_kept (Oracle.any p Z)) a1 u1 w1
  have p2 := dce_plain (keep_kept (Oracle.any p Z)) a1 p1
  have n2 := noAsm_dce hf K.extract K.dce
  have s2 := dce_singleReturn (hd := K.dce) s1
  have c2 : ZStmt.NoCastL (eliminateDeadCode K.dce (extractPanics K.extract f)).body := keepStmts hereditary_noCast _ _ c1
  obtain ⟨g, hg⟩ := C22_no_panic hN w2
  have n3 : ZStmt.NoAsmL g.body := uintOptimize_shape hg shape_noAsm n2
  have c3 : ZStmt.NoCastL g.body := uintOptimize_shape hg shape_noCast c2
  have m3 := fun O : Oracle p Z => C22_meaning (hUO O) hg
  refine ⟨g, ?_, ?_⟩
  · unfold analyseZir
    rw [hg]
    dsimp only
    rw [transform_noAsm n3]
  · refine ⟨C22_plain_annotations hN w2 p2 hg, uintOptimize_singleReturn hg s2, n3, ?_, ?_, ?_, ?_, ?_, ?_, ?_, ?_, ?_⟩
    · intro ho
      exact uintOptimize_shape hg shape_oracleFree (keepStmts hereditary_oracleFree _ _ (closedStmts closed_oracleFree f.body hf.powers ho))
    · exact (m3 (Oracle.any p Z)).1
    · exact (m3 (Oracle.any p Z)).2.1
    · rintro O ins e (rfl | rfl) h
      · exact dce_noDiv hp hf.powers ins (((m3 O).2.2.2 ins _).1 h)
      · exact noCast_notBool c3 ins h
    · intro O ins outs h
      exact ((m3 O).2.2.1 ins outs).2 ((C45_results (keep_kept O) a1 u1).2.2 ins outs (((C44_results hp (hxO O) hf.powers).2.2 ins outs).2 h))
    · intro O ins outs hc h
      rcases C45_no_new_results (keep_kept O) a1 u1 hc ins outs (((m3 O).2.2.1 ins outs).1 h) with h1 | h1
      · exact Or.inl (((C44_results hp (hxO O) hf.powers).2.2 ins outs).1 h1)
      · exact Or.inr ((C44_failures hp (hxO O) hf.powers ins).1 h1)
    · rintro O ins hc ⟨e, h⟩
      exact (C44_failures hp (hxO O) hf.powers ins).1 (C45_no_new_failures (keep_kept O) a1 u1 hc ins ⟨e, ((m3 O).2.2.2 ins e).1 h⟩)
    · intro O ins h
      obtain ⟨e, h1⟩ := C45_division_by_zero_kept hp (hxO O) hf.powers (keep_kept O) (fun _ _ h => h) hf.apart u1 ins h
      exact ⟨e, ((m3 O).2.2.2 ins e).2 h1⟩
    · rintro O ins ⟨e, vs, h1, h2⟩
      obtain ⟨e', h3⟩ := outStmts (hx := K.extract) hp (hxO O) f.body hf.powers h2
      exact ⟨e', ((m3 O).2.2.2 ins e').2 (C45_failures_kept (keep_kept O) a1 u1 ins e' ⟨vs, h1, h3⟩)⟩

end Zok.Pl
