import Verif.Lemmas.Assembly4
import Verif.Lemmas.Progress
import Verif.Props.TypeSound

/-
C41: the transformation of the constraints of assembly blocks.
-/

set_option linter.unusedSectionVars false

namespace Zok
open Prop' Dce Atr Flt
variable {p : ℕ} {Z : Type} [Fact p.Prime] {O : Oracle p Z} {f g : ZFun (ZMod p) Z}

/-- **C41** (results). If no constraint is of degree higher than two, every result of a function is still one when its constraints
were rewritten, and the signature is the same. -/
theorem C41_results_partial (hd : ZStmt.AtMostQuadraticL f.body) (h : transformAssembly f = .ok g) :
    g.params = f.params ∧ g.returnCount = f.returnCount ∧ ∀ ins outs, Returns O f ins outs → Returns O g ins outs := by
  unfold transformAssembly at h
  obtain ⟨ss, h1, h⟩ := Prop'.exc_bind_ok h
  cases h
  refine ⟨rfl, rfl, ?_⟩
  rintro ins outs ⟨vs, σ, rs, h2, h3, h4, h5⟩
  rcases (stmts_same (O := O) f.body hd h1 (initState f vs)).1 _ h3 with h6 | ⟨r, h6, h7⟩
  · cases h6
  · cases h7
    exact ⟨vs, σ, rs, h2, h6, h4, h5⟩

/-- **C41** (the same function). A well-typed function whose constraints are of degree at most two has the same results before and
after its constraints were rewritten, and fails for the same arguments. -/
theorem C41_same_partial (hw : WtFun f) (hd : ZStmt.AtMostQuadraticL f.body) (h : transformAssembly f = .ok g) (ins : List (ZMod p)) :
    (∀ outs, Returns O f ins outs ↔ Returns O g ins outs) ∧ ((∃ e, Faults O f ins e) ↔ ∃ e, Faults O g ins e) := by
  have hr := (C41_results_partial (O := O) hd h).2.2 ins
  unfold transformAssembly at h
  obtain ⟨ss, h1, h⟩ := Prop'.exc_bind_ok h
  cases h
  have key : ∀ vs, decodeArgs f.params ins = some vs → ¬ ExecL O (initState f vs) f.body (.error .stuck) :=
    fun vs h2 h3 => C46_never_stuck hw ins ⟨vs, h2, h3⟩
  refine ⟨fun outs => ⟨hr outs, ?_⟩, ?_, ?_⟩
  · rintro ⟨vs, σ, rs, h2, h3, h4, h5⟩
    rcases (stmts_same (O := O) f.body hd h1 (initState f vs)).2 _ h3 with h6 | ⟨r, h6, h7⟩
    · exact absurd h6 (key vs h2)
    · cases h7
      exact ⟨vs, σ, rs, h2, h6, h4, h5⟩
  · rintro ⟨e, vs, h2, h3⟩
    rcases (stmts_same (O := O) f.body hd h1 (initState f vs)).1 _ h3 with h6 | ⟨r, h6, h7⟩
    · cases h6
      exact absurd h3 (key vs h2)
    · cases h7
      exact ⟨_, vs, h2, h6⟩
  · rintro ⟨e, vs, h2, h3⟩
    rcases (stmts_same (O := O) f.body hd h1 (initState f vs)).2 _ h3 with h6 | ⟨r, h6, h7⟩
    · exact absurd h6 (key vs h2)
    · cases h7
      exact ⟨_, vs, h2, h6⟩

/-- **C41** (no panic). The only reason for which the transformation rejects a program is a constraint that is not quadratic; it never
panics. -/
theorem C41_only_nonquadratic_rejected (e : AtrError) (h : transformAssembly f = .error e) : e = .nonQuadratic := by
  unfold transformAssembly at h
  cases h1 : stmts f.body with
  | error e' => rw [h1] at h; cases h; exact stmts_error f.body h1
  | ok ss => rw [h1] at h; cases h

/-- **C41** (one constraint each). If literals are only multiplied with variables and literals, then each hint of a rewritten assembly
block is compiled to one directive and each constraint to one quadratic constraint, in order; the only new variables are those assigned
by hints. -/
theorem C41_one_constraint_each_partial {ss ss' : List (ZAsm (ZMod p) Z)} (hs : ∀ l r info, ZAsm.constraint l r info ∈ ss → l.Simple ∧ r.Simple)
    (h : Atr.stmt (.assembly ss) = .ok (.assembly ss')) {st st' : FlState p Z} (h' : flattenStmt (.assembly ss') st = some ((), st')) :
    ∃ B, st'.out = st.out ++ [.block B] ∧ List.Forall₂ ZAsm.OneStmt ss B ∧ st'.next = st.next + (ZAsm.targets ss).length := by
  simp only [Atr.stmt] at h
  obtain ⟨ss₁, h1, h⟩ := Prop'.exc_bind_ok h
  cases h
  simp only [flattenStmt, inBlock] at h'
  split at h'
  · cases h'
  · rename_i st₁ h2
    cases h'
    obtain ⟨B, h3, h4, h5⟩ := flatten_asms ss hs h1 h2
    exact ⟨st₁.out, rfl, by rw [h3]; simpa using h4, h5⟩

end Zok
