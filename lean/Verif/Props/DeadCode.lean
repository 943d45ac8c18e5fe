import Verif.Lemmas.DceLive
import Verif.Props.Panics

/-
C45: the elimination of dead code. `hd z u` is what the pass makes of the hint `z` when `u` are the variables used so far, and
the variables used after it; `hm z` are the variables which appear in the hint `z`.
-/

set_option linter.unusedSectionVars false

namespace Zok
open Dce
variable {p : ℕ} {Z : Type} [Fact p.Prime] {O : Oracle p Z} {hd : Z → Used → Z × Used} {hm : Z → List ZId} {f : ZFun (ZMod p) Z}

/-- **C45** (results). Every result of a function is still one after dead code was removed, and the signature is the same. -/
theorem C45_results (hk : HintsKept O hd) (hf : ZStmt.BranchesApartL hm f.body) (hu : ZStmt.ArgsUsedL hd f.body) :
    (eliminateDeadCode hd f).params = f.params ∧ (eliminateDeadCode hd f).returnCount = f.returnCount ∧
    ∀ ins outs, Returns O f ins outs → Returns O (eliminateDeadCode hd f) ins outs := by
  refine ⟨rfl, rfl, ?_⟩
  rintro ins outs ⟨vs, σ, rs, h1, h2, h3, h4⟩
  obtain ⟨τ, h5, h6⟩ := fwdStmts (W := fun x => (dceStmts hd f.body fun _ => false).2 x = true) hk f.body (fun _ => false) hf hu
    (fun _ _ h => h) (Agree.refl _) h2
  exact ⟨vs, τ, rs, h1, h5, h6.outs ▸ h3, h4⟩

/-- **C45** (no new results). What is left returns nothing the function does not return, except where the function fails: an
unused expression is no longer evaluated. -/
theorem C45_no_new_results (hk : HintsKept O hd) (hf : ZStmt.BranchesApartL hm f.body) (hu : ZStmt.ArgsUsedL hd f.body)
    (hc : ZStmt.CallsOkL O f.body) (ins outs : List (ZMod p)) (h : Returns O (eliminateDeadCode hd f) ins outs) :
    Returns O f ins outs ∨ ∃ e, Faults O f ins e := by
  obtain ⟨vs, τ, rs, h1, h2, h3, h4⟩ := h
  rcases backStmts (W := fun x => (dceStmts hd f.body fun _ => false).2 x = true) hk f.body (fun _ => false) hf hu hc
    (fun _ _ h => h) (Agree.refl _) h2 with ⟨e, h5⟩ | ⟨σ', τ', h5, h6, h7⟩
  · exact Or.inr ⟨e, vs, h1, h5⟩
  · cases h5
    exact Or.inl ⟨vs, σ', rs, h1, h6, h7.outs ▸ h3, h4⟩

/-- **C45** (no new failures). What is left only fails when the function does. -/
theorem C45_no_new_failures (hk : HintsKept O hd) (hf : ZStmt.BranchesApartL hm f.body) (hu : ZStmt.ArgsUsedL hd f.body)
    (hc : ZStmt.CallsOkL O f.body) (ins : List (ZMod p)) (h : ∃ e, Faults O (eliminateDeadCode hd f) ins e) : ∃ e, Faults O f ins e := by
  obtain ⟨e, vs, h1, h2⟩ := h
  rcases backStmts (W := fun x => (dceStmts hd f.body fun _ => false).2 x = true) hk f.body (fun _ => false) hf hu hc
    (fun _ _ h => h) (Agree.refl _) h2 with ⟨e, h5⟩ | ⟨σ', τ', h5, h6, h7⟩
  · exact ⟨e, vs, h1, h5⟩
  · cases h5

/-- **C45** (failures). Failures of assertions, constraints and of everything else that is not the right side of a definition are
kept, with their reason. -/
theorem C45_failures_kept (hk : HintsKept O hd) (hf : ZStmt.BranchesApartL hm f.body) (hu : ZStmt.ArgsUsedL hd f.body)
    (ins : List (ZMod p)) (e : Fault) (h : ∃ vs, decodeArgs f.params ins = some vs ∧ FailsOutsideL O (initState f vs) f.body e) :
    Faults O (eliminateDeadCode hd f) ins e := by
  obtain ⟨vs, h1, h2⟩ := h
  exact ⟨vs, h1, failStmts (W := fun x => (dceStmts hd f.body fun _ => false).2 x = true) hk f.body (fun _ => false) hf hu
    (fun _ _ h => h) (Agree.refl _) h2⟩

/-- **C45** (divisions by zero). When panics were extracted before, the program still fails on arguments on which the source
divides a field element by zero, also if the quotient is not used. -/
theorem C45_division_by_zero_kept {hx : Z → List (ZStmt (ZMod p) Z) → Z} (hp : 2 < p) (hO : ∀ z, O.hint (hx z []) = O.hint z)
    (he : ZStmt.ExtractableL f.body) (hk : HintsKept O hd) (hh : ∀ z, ∀ x ∈ hm (hx z []), x ∈ hm z)
    (hf : ZStmt.BranchesApartL hm f.body) (hu : ZStmt.ArgsUsedL hd (extractPanics hx f).body)
    (ins : List (ZMod p)) (h : Faults O f ins .divZero) : ∃ e, Faults O (eliminateDeadCode hd (extractPanics hx f)) ins e := by
  obtain ⟨vs, h1, h2⟩ := h
  obtain ⟨e, h3⟩ := Px.divStmts (hx := hx) hp hO f.body he h2
  exact ⟨e, C45_failures_kept hk (Px.extract_apart hh he hf) hu ins e ⟨vs, h1, h3⟩⟩

/-- **C45** (all dead code is removed). A definition or call that is left defines a variable which appears in the statements after
it, and is not assigned there again. -/
theorem C45_no_dead_definitions (hl : ∀ z u x, (hd z u).2 x = true → u x = true ∨ x ∈ hm (hd z u).1)
    (hf : ZStmt.AssignedFirstL hm f.body) (pre post : List (ZStmt (ZMod p) Z)) (s : ZStmt (ZMod p) Z)
    (h : (eliminateDeadCode hd f).body = pre ++ s :: post) :
    (∀ x e, s = .definition x e → x ∈ ZStmt.mentionsL hm post ∧ x ∉ ZStmt.assignsL post) ∧
    ∀ xs embed g args, s = .multiDef xs embed g args → ∃ x ∈ xs, x ∈ ZStmt.mentionsL hm post ∧ x ∉ ZStmt.assignsL post :=
  live_split hl f.body h hf

end Zok
