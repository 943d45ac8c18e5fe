import Verif.Lemmas.Progress

/-
C46: well-typed programs do not get stuck.
-/

set_option linter.unusedSectionVars false

namespace Zok
open Ts
variable {p : ℕ} {Z : Type} [Fact p.Prime] {O : Oracle p Z} {f : ZFun (ZMod p) Z}

/-- **C46** (never stuck). A well-typed function never reads a variable without a value or with a value of another type, on no
arguments, and whatever the prover chooses. -/
theorem C46_never_stuck (h : WtFun f) (ins : List (ZMod p)) : ¬ Faults O f ins .stuck := by
  rintro ⟨vs, h1, h2⟩
  obtain ⟨ss, es, Γ', -, -, hb⟩ := h.body
  exact soundStmts f.body (init_tenv h1) hb h2 rfl

/-- **C46** (an outcome). A well-typed function returns something or fails on all arguments which have the types of its parameters;
if it has hints or unpacks field elements, then when these have results. -/
theorem C46_outcome (h : WtFun f) (hO : ZStmt.OracleFreeL f.body ∨ O.Total) (ins : List (ZMod p))
    (hi : (decodeArgs f.params ins).isSome) : (∃ outs, Returns O f ins outs) ∨ ∃ e, Faults O f ins e := by
  obtain ⟨vs, hv⟩ := Option.isSome_iff_exists.1 hi
  obtain ⟨ss, es, Γ', h1, h2, hb⟩ := h.body
  obtain ⟨r, hr⟩ := progStmts f.body hO (init_tenv hv) hb
  cases r with
  | error e => exact Or.inr ⟨e, vs, hv, hr⟩
  | ok σ =>
    obtain ⟨rs, h3, -⟩ := ret_outs (h1 ▸ hr)
    exact Or.inl ⟨_, vs, σ, rs, hv, hr, h3, rfl⟩

/-- **C46** (the number of results). A well-typed function returns as many field elements as it declares. -/
theorem C46_number_of_results (h : WtFun f) (ins outs : List (ZMod p)) (hr : Returns O f ins outs) : outs.length = f.returnCount := by
  obtain ⟨vs, σ, rs, hv, hr, h3, rfl⟩ := hr
  obtain ⟨ss, es, Γ', h1, h2, hb⟩ := h.body
  obtain ⟨rs', h4, h5⟩ := ret_outs (h1 ▸ hr)
  rw [h3] at h4
  cases h4
  simp [h5, h2]

/-- **C46** (one outcome). A well-typed function without hints and unpacking either has exactly one result, and does not fail, or has no
result, and fails: never both, and never neither. -/
theorem C46_one_outcome (h : WtFun f) (hO : ZStmt.OracleFreeL f.body) (ins : List (ZMod p)) (hi : (decodeArgs f.params ins).isSome) :
    ((∃! outs, Returns O f ins outs) ∧ ∀ e, ¬ Faults O f ins e) ∨ ((∀ outs, ¬ Returns O f ins outs) ∧ ∃ e, e ≠ .stuck ∧ Faults O f ins e) := by
  by_cases hr : ∃ outs, Returns O f ins outs
  · obtain ⟨outs, hr⟩ := hr
    exact Or.inl ⟨⟨outs, hr, fun o h => h.unique hO hr⟩, fun e he => hr.not_faults hO he⟩
  · refine Or.inr ⟨fun outs h => hr ⟨outs, h⟩, ?_⟩
    rcases C46_outcome h (Or.inl hO) ins hi with h1 | ⟨e, h1⟩
    · exact absurd h1 hr
    · exact ⟨e, fun he => C46_never_stuck h ins (he ▸ h1), h1⟩

end Zok
