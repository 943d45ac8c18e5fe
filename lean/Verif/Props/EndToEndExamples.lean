import Verif.Props.EndToEnd

/-
Programs that meet the hypotheses of `Props/Complete.lean` and `Props/EndToEnd.lean`.
-/

set_option linter.unusedSectionVars false

namespace Zok

/-- For every program there is a hash function which separates the statements of the run. -/
theorem exists_hash {p : ℕ} {Z : Type} [Fact p.Prime] [DecidableEq Z] (sem : SolverSem (ZMod p) Z) (P : Prog (ZMod p) Z) :
    ∃ hash, HashSeparatesRun sem hash P := by
  classical
  cases h : redefStmts sem false (redefInit P.arguments P.returnCount) P.statements with
  | none => exact ⟨fun _ => 0, fun st' out h' => by rw [h] at h'; cases h'⟩
  | some t =>
    refine ⟨fun s => (Stmt.cleanL (dirStmts ⟨[], []⟩ (canonStmts (tautStmts t.2))).2).idxOf s, ?_⟩
    intro st' out h'
    rw [h] at h'
    cases h'
    intro s hs u hu e
    have := List.idxOf_inj hs |>.1 e
    rw [this]

/-! ### C19–C21 -/

theorem exSt_ready (sem : SolverSem (ZMod 97) Unit) (ρ : Assignment (ZMod 97)) :
    Ready sem {x | ∃ i < 3, x = Variable.new i} {x | ∃ i < 3, x = Variable.new i} ρ exSt := by
  refine ⟨.nil, ?_, ?_, (fun f c h => by cases h), (fun f c h => by cases h),
    (fun s h => by cases h), fun f c h => by cases h⟩
  · rintro k hk ⟨i, hi, he⟩
    have : k = i := by
      have := he
      unfold Variable.new at this
      have h2 : (k : Int) = i := by linarith
      exact_mod_cast h2
    have : 3 ≤ k := hk
    omega
  · intro x v h
    unfold exSt at h
    simp only at h
    split at h
    · cases h; exact ⟨0, by norm_num, rfl⟩
    · split at h
      · cases h; exact ⟨1, by norm_num, rfl⟩
      · split at h
        · cases h; exact ⟨2, by norm_num, rfl⟩
        · cases h

/-- The completeness theorems for expressions apply, e.g. to `x ** 3 / (x - 5)`. -/
example (sem : SolverSem (ZMod 97) Unit) : ∃ a st', Completes sem {x | ∃ i < 3, x = Variable.new i}
    (tableAssignment [3, 1, 3]) st' (fun ρ' => FlatExpr.val ρ' a = 35) := by
  have he : OkF exΓ (.div (.pow (.ident 0) (um 2 3 .no (.value 3))) (.sub (.ident 0) (.value 5))) :=
    ⟨⟨rfl, _, _, _, rfl, by norm_num⟩, rfl, trivial⟩
  have h : ((Flt.flattenF (.div (.pow (.ident 0) (um 2 3 .no (.value 3))) (.sub (.ident 0) (.value 5))) exSt).map
    (fun t => t.2.clash)) = some false := by decide +kernel
  cases hm : Flt.flattenF (.div (.pow (.ident 0) (um 2 3 .no (.value 3))) (.sub (.ident 0) (.value 5))) exSt with
  | none => rw [hm] at h; cases h
  | some t =>
    rw [hm] at h
    cases h' : t.2.clash with
    | true => rw [Option.map_some, h'] at h; cases h
    | false =>
      exact ⟨t.1, t.2, C20_field_expression_complete_partial (by norm_num) he exEnv_ok hm (exSt_ready sem _) h'
        (by decide +kernel)⟩

/-! ### C24, C43 -/

theorem exF_single : SingleReturn exF := ⟨[_, _], _, rfl, trivial, trivial, trivial⟩

theorem exF_noBlocks : ZStmt.NoAsmL exF.body := by
  unfold exF
  simp only [ZStmt.NoAsmL, ZStmt.NoAsm, and_self]

/-- The source function returns 2 and 1/3 on the arguments 3, 3, true. -/
theorem exF_returns (o : Oracle 97 Unit) : Returns o exF [3, 3, 1] [2, 65] := by
  refine ⟨[.field 3, .uint 2 3, .bool true], _, [.uint 2 2, .field 65], by decide +kernel,
    .cons (.definition (v := .field 9) (by decide +kernel)) (.cons (.assertOk (by decide +kernel))
      (.cons (.ret (vs := [.uint 2 2, .field 65]) (by decide +kernel)) .nil)), rfl, by decide +kernel⟩

/-- Hints of the examples: none is used. -/
def exSem : SolverSem (ZMod 97) Unit := ⟨fun _ => (1, 1), fun _ xs => .ok xs, fun _ _ => []⟩

/-- A function that can be lowered and optimised is compiled, for some hash function which separates its statements. -/
theorem compiles_of {p : ℕ} [Fact p.Prime] {sem : SolverSem (ZMod p) Unit} {f : ZFun (ZMod p) Unit} {c : Bool} (h : ((lowerProgram f).map fun t => (t.2, (redefStmts sem false
      (redefInit t.1.arguments t.1.returnCount) t.1.statements).isSome)) = some (c, true)) :
    ∃ hash P', compileZir sem hash f = some (P', c) ∧
      ∀ P cl, lowerProgram f = some (P, cl) → HashSeparatesRun sem hash P := by
  cases hl : lowerProgram f with
  | none => rw [hl] at h; cases h
  | some t =>
    obtain ⟨P, c⟩ := t
    rw [hl] at h
    simp only [Option.map_some, Option.some.injEq, Prod.mk.injEq] at h
    obtain ⟨rfl, h2⟩ := h
    obtain ⟨hash, hh⟩ := exists_hash sem P
    obtain ⟨u, hu⟩ := Option.isSome_iff_exists.1 h2
    cases ho : optimize sem hash P with
    | none =>
      unfold optimize at ho
      rw [hu] at ho
      cases ho
    | some Q =>
      refine ⟨hash, Q.clean, ?_, fun P' cl hP' => by cases hP'; exact hh⟩
      unfold compileZir
      rw [hl]
      simp only [ho]

/-- The function is compiled without clash. -/
theorem exF_compiles : ∃ hash P', compileZir exSem hash exF = some (P', false) ∧
    ∀ P cl, lowerProgram exF = some (P, cl) → HashSeparatesRun exSem hash P := compiles_of (by decide +kernel)

/-- All hypotheses of C24 and C43 are met, and the theorems apply. -/
example : ∃ hash P', compileZir exSem hash exF = some (P', false) ∧ ExecutesTo exSem P' [3, 3, 1] [2, 65] := by
  obtain ⟨hash, P', h1, h2⟩ := exF_compiles
  exact ⟨hash, P', h1, C43_execution_complete_partial (by norm_num) exF_ok exF_single exF_noBlocks h1 h2 (exF_returns _)⟩

theorem exF_oracleFree : ZStmt.OracleFreeL exF.body := ⟨trivial, trivial, trivial, trivial⟩

/-- The compiled circuit rejects other outputs: with arguments 3, 3, true the outputs are 2 and 65. -/
example : ∃ hash P', compileZir exSem hash exF = some (P', false) ∧ ∀ outs, Realises P' [3, 3, 1] outs ↔ outs = [2, 65] := by
  obtain ⟨hash, P', h1, h2⟩ := exF_compiles
  have hr := exF_returns (Oracle.any 97 Unit)
  refine ⟨hash, P', h1, fun outs => ⟨fun h => ?_, fun h => ?_⟩⟩
  · exact C43_unique_partial (by norm_num) exF_ok exF_single exF_noBlocks exF_oracleFree h1 h2 hr h
  · subst h
    exact ((C43_iff_partial (by norm_num) exF_ok exF_single exF_noBlocks exF_oracleFree h1 h2
      fun e _ => hr.not_faults exF_oracleFree).1).2 hr

end Zok
