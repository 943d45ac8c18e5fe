import Verif.Lemmas.SourceComplete
import Verif.Props.Whole
import Verif.Props.Semantics

/-
C69: from source to circuit. A function which is accepted by the type checker, and compiled by everything behind it, becomes a circuit which is satisfied by what the source
function returns, and by nothing else.
-/

set_option linter.unusedVariables false
set_option linter.unusedSectionVars false

namespace Zok.Sem
open Typed Abi Pl
variable {p : ℕ} {D : Decls} [Fact p.Prime] {Z : Type}

section
variable {O : Oracle p Z} {f : SFun} {tf : TFun (ZMod p)}

/-- The typed function returns what the source function returns. -/
theorem C69_returns (hD : D.Ok) (hf : f.TypesOk) (h : checkFun D f = .ok tf) (hw : tf.Wt) {args : List (AVal (ZMod p))} {out : AVal (ZMod p)} (hr : Returns D f args out) :
    ReturnsT O tf args out := by
  obtain ⟨h1, h2, h3, h4, -⟩ := C68_reads hD hf h
  have hb := hw.body
  rw [h2] at hb
  obtain ⟨σ, a, b⟩ := run_sound (O := O) (σ := initT tf args) hr.2 (by rw [initT, h1]; exact envOk_args f.params args hr.1 envOk_empty) h4 hb
  refine ⟨?_, σ, a, b⟩
  rw [h1, List.map_map]
  exact hr.1

/-- An assertion of the typed function fails where one of the source function fails. -/
theorem C69_fails (hD : D.Ok) (hf : f.TypesOk) (h : checkFun D f = .ok tf) (hw : tf.Wt) {args : List (AVal (ZMod p))} (hr : Fails D f args) :
    FaultsT O tf args .assertionFailed := by
  obtain ⟨h1, h2, h3, h4, -⟩ := C68_reads hD hf h
  have hb := hw.body
  rw [h2] at hb
  have a := fails_sound (O := O) (σ := initT tf args) hr.2 (by rw [initT, h1]; exact envOk_args f.params args hr.1 envOk_empty) h4 hb
  refine ⟨?_, a⟩
  rw [h1, List.map_map]
  exact hr.1

/-- The meaning of an expression of the source is preserved: it is evaluated to the same value. -/
theorem C69_expression {G : Scope} {E : SEnv p} {env : TEnv p} (ho : EnvOk G E env) {s : SExpr} {t : CType} {v : AVal (ZMod p)} (h : Ev D E s t v) {e : TExpr (ZMod p)}
    (hr : Reads D G s e) (hw : e.Wt) (ht : e.ty = t ∨ s.Det) : e.ty = t ∧ evalT env e = .ok v := ev_sound ho h hr hw ht

/-- Nothing else is returned: the typed function and the source function return the same values. Here operands must not consist of literals only where their type is left
open, as in `1 == 2`, and the `return` is the last statement (`DefiniteSS`). -/
theorem C69_returns_iff (hD : D.Ok) (hf : f.TypesOk) (h : checkFun D f = .ok tf) (hw : tf.Wt) (hd : DefiniteSS f.stmts) {args : List (AVal (ZMod p))} {out : AVal (ZMod p)} :
    ReturnsT O tf args out ↔ Returns D f args out := by
  refine ⟨fun hr => ?_, C69_returns hD hf h hw⟩
  obtain ⟨h1, h2, h3, h4, -⟩ := C68_reads hD hf h
  obtain ⟨ht, σ, a, b⟩ := hr
  have hb := hw.body
  rw [h1, List.map_map] at ht
  rw [h2] at hb
  obtain ⟨out', c, d⟩ := (run_complete (O := O) h4 (σ := initT tf args) (by rw [initT, h1]; exact envOk_args f.params args ht envOk_empty) hb hd).1 a
  rw [b] at c
  cases c
  exact ⟨ht, d⟩

/-- The same for failing assertions. -/
theorem C69_fails_iff (hD : D.Ok) (hf : f.TypesOk) (h : checkFun D f = .ok tf) (hw : tf.Wt) (hd : DefiniteSS f.stmts) {args : List (AVal (ZMod p))} :
    FaultsT O tf args .assertionFailed ↔ Fails D f args := by
  refine ⟨fun hr => ?_, C69_fails hD hf h hw⟩
  obtain ⟨h1, h2, h3, h4, -⟩ := C68_reads hD hf h
  obtain ⟨ht, a⟩ := hr
  have hb := hw.body
  rw [h1, List.map_map] at ht
  rw [h2] at hb
  exact ⟨ht, (run_complete (O := O) h4 (σ := initT tf args) (by rw [initT, h1]; exact envOk_args f.params args ht envOk_empty) hb hd).2 a⟩

/-- On arguments of the types of the parameters the source function returns a value, or one of its assertions fails, or the typed function meets an undefined operation:
a division by zero, an index out of bounds, or a comparison out of range. -/
theorem C69_outcome (hD : D.Ok) (hf : f.TypesOk) (h : checkFun D f = .ok tf) (hw : tf.Wt) (hd : DefiniteSS f.stmts) {args : List (AVal (ZMod p))}
    (ha : HasTypeL (f.params.map fun q => q.1.ty) args) :
    (∃ out, Returns D f args out) ∨ Fails D f args ∨ ∃ e, e ≠ .assertionFailed ∧ FaultsT O tf args e := by
  obtain ⟨h1, h2, h3, h4, -⟩ := C68_reads hD hf h
  have hb := hw.body
  rw [h2] at hb
  have hr := fun {σ'} => (run_complete (O := O) h4 (σ := initT tf args) (by rw [initT, h1]; exact envOk_args f.params args ha envOk_empty) hb hd).1 (σ' := σ')
  obtain ⟨o, ho⟩ := exec_outcome (O := O) h4 (σ := initT tf args) hb
  cases o with
  | ok σ' =>
    obtain ⟨out, c, d⟩ := hr ho
    exact .inl ⟨out, ha, d⟩
  | error e =>
    have hF : FaultsT O tf args e := ⟨by rw [h1, List.map_map]; exact ha, ho⟩
    by_cases he : e = .assertionFailed
    · subst he
      exact .inr (.inl ((C69_fails_iff hD hf h hw hd).1 hF))
    · exact .inr (.inr ⟨e, he, hF⟩)

/-- A source function which is accepted returns at most one value, and none if an assertion fails. -/
theorem C69_unique (hD : D.Ok) (hf : f.TypesOk) (h : checkFun D f = .ok tf) (hw : tf.Wt) {args : List (AVal (ZMod p))} {out : AVal (ZMod p)} (hr : Returns D f args out) :
    (∀ out', Returns D f args out' → out' = out) ∧ ¬ Fails D f args := by
  obtain ⟨h1, h2, h3, h4, -⟩ := C68_reads hD hf h
  have hfree := readsSS_free h4
  have a := C69_returns (O := Oracle.any p Unit) hD hf h hw hr
  exact ⟨fun out' hr' => a.unique hfree (C69_returns (O := Oracle.any p Unit) hD hf h hw hr'),
    fun hF => a.not_faults hfree _ (C69_fails (O := Oracle.any p Unit) hD hf h hw hF)⟩

/-- For arithmetic functions (field elements, booleans and integers; see C68) the type checker leaves nothing out, so that nothing has to be assumed about the typed
function. -/
theorem C69_arithmetic (hD : D.Ok) (hp : ∀ q ∈ f.params, Scalar q.1.ty) (hr : Scalar f.ret) (hb : ∀ s ∈ f.body, s.Arith) (h : checkFun D f = .ok tf)
    (hd : DefiniteSS f.stmts) (args : List (AVal (ZMod p))) :
    (∀ out, ReturnsT O tf args out ↔ Returns D f args out) ∧ (FaultsT O tf args .assertionFailed ↔ Fails D f args) := by
  have ok : ∀ {t : CType}, Scalar t → TypeOk t := by
    rintro t (rfl | rfl | ⟨w, rfl⟩)
    · exact typeOk_field
    · exact typeOk_bool'
    · exact typeOk_uint w
  have hf : f.TypesOk := by
    refine ⟨fun q hq => ok (hp q hq), ok hr, fun s hs t ht => ?_⟩
    have := hb s hs
    cases s <;> simp only [SStmt.declares, List.mem_singleton, List.not_mem_nil] at ht
    subst ht
    exact ok this.1
  have hw := C68_arithmetic_function hD hp hr hb h
  exact ⟨fun _ => C69_returns_iff hD hf h hw hd, C69_fails_iff hD hf h hw hd⟩

/-- The function is well typed for the reducer: this includes what is required behind well-typedness, that a variable is not assigned slices of itself. -/
theorem C69_well_typed (hD : D.Ok) (hf : f.TypesOk) (h : checkFun D f = .ok tf) (hw : tf.Wt) : (toReduce tf).Wt := by
  obtain ⟨-, h2, -, h4, -⟩ := C68_reads hD hf h
  exact ⟨hw.params, hw.ret, readsSS_wtSs h4 hw.body⟩

end

/-- The type checker, the reducer, and everything behind it: `zokrates_core/src/compile.rs:120-200`, of a function without loops and calls. -/
def compileSource [DecidableEq Z] (D : Decls) (ord : List (TStmt (ZMod p)) → List (TStmt (ZMod p))) (cid : ℕ → TId) (nm : SId → ZId) (HF : Prop'.HintFolder p Z)
    (err : String → RuntimeError) (H : HintPasses p Z) (sem : SolverSem (ZMod p) Z) (hash : Stmt (ZMod p) Z → ℕ) (k : ℕ) (f : SFun) : Option (Prog (ZMod p) Z × Bool) :=
  match checkFun (p := p) D f with
  | .error _ => none
  | .ok tf => compileReduced ord cid nm HF err H sem hash noFunctions k (toReduce tf)

/-- The functions for which the compiler is proved correct: their types are legal; the typed function is well typed (see C68 for what the checker leaves out, and
`C68_arithmetic_function` for functions of which it leaves out nothing); it is accepted by the passes behind the checker, no assignment of the reduced function depends on the
order of the components of the assigned part, and the program behind `ZirPropagator` is one for which the back end is proved correct. -/
structure Compiled (D : Decls) (ord : List (TStmt (ZMod p)) → List (TStmt (ZMod p))) (nm : SId → ZId) (HF : Prop'.HintFolder p Z) (err : String → RuntimeError) (k : ℕ)
    (f : SFun) (g' : ZFun (ZMod p) Z) : Prop where
  decls : D.Ok
  types : f.TypesOk
  checked : ∃ tf, checkFun D f = .ok tf ∧ tf.Wt ∧ ∃ g, reduce noFunctions k (toReduce tf) = .ok g ∧ (∀ s ∈ g.body, s.InOrder) ∧
    ∃ g1 g2 g3, propagateT g = .ok g1 ∧ analyseTyped ord freshName g1 = some g2 ∧ flatFun nm g2 = some g3 ∧ Prop'.propagate HF err g3 = .ok g'
  compilable : Compilable g'

variable {nm : SId → ZId} {ord : List (TStmt (ZMod p)) → List (TStmt (ZMod p))} {k : ℕ} {f : SFun}
variable [DecidableEq Z] {sem : SolverSem (ZMod p) Z} {hash : Stmt (ZMod p) Z → ℕ} {H : HintPasses p Z} {HF : Prop'.HintFolder p Z}
variable {err : String → RuntimeError} {g' : ZFun (ZMod p) Z} {P' : Prog (ZMod p) Z}

theorem Compiled.reduced (hf : Compiled D ord nm HF err k f g') : ∃ tf, checkFun D f = .ok tf ∧ tf.Wt ∧ Reduced ord nm HF err noFunctions k (toReduce tf) g' := by
  obtain ⟨tf, h1, h2, h3⟩ := hf.checked
  exact ⟨tf, h1, h2, noFunctions_wt, C69_well_typed hf.decls hf.types h1 h2, h3, hf.compilable⟩

theorem compileSource_some {tf : TFun (ZMod p)} (h1 : checkFun D f = .ok tf) (h : compileSource D ord freshName nm HF err H sem hash k f = some (P', false)) :
    compileReduced ord freshName nm HF err H sem hash noFunctions k (toReduce tf) = some (P', false) := by
  simpa only [compileSource, h1] using h

/-- **C69** (the circuit is the source function). If the source function returns `out` on `args`, then the compiled circuit accepts the encoding of `args` with the encoding of
`out` and with no other outputs, and executing it returns the encoding of `out`. -/
theorem C69_compiled_exact_partial (hnm : Function.Injective nm) (hord : Enumerates ord) (hp : 2 ^ 64 ≤ p) (hf : Compiled D ord nm HF err k f g')
    (ho' : ZStmt.OracleFreeL g'.body) (h : compileSource D ord freshName nm HF err H sem hash k f = some (P', false)) (hh : HashOk H sem hash g')
    {args : List (AVal (ZMod p))} {out : AVal (ZMod p)} (hr : Returns D f args out) (outs : List (ZMod p)) :
    (Realises P' (encodeL args) outs ↔ outs = encode out) ∧ (ExecutesTo sem P' (encodeL args) outs ↔ outs = encode out) := by
  obtain ⟨tf, h1, h2, h3⟩ := hf.reduced
  obtain ⟨a, σ, b, c⟩ := C69_returns (O := Oracle.any p Z) hf.decls hf.types h1 h2 hr
  exact C57_compiled_exact_partial (O := Oracle.any p Z) hnm hord hp h3 noFunctions_free ho' (compileSource_some h1 h) hh ⟨a, σ, exec_simple.1 b, c⟩ outs

/-- **C69** (assertions are enforced). No assignment satisfies the compiled circuit with the encoding of arguments on which an assertion of the source function fails. -/
theorem C69_compiled_rejects_partial (hnm : Function.Injective nm) (hord : Enumerates ord) (hp : 2 ^ 64 ≤ p) (hf : Compiled D ord nm HF err k f g')
    (ho' : ZStmt.OracleFreeL g'.body) (h : compileSource D ord freshName nm HF err H sem hash k f = some (P', false)) (hh : HashOk H sem hash g')
    {args : List (AVal (ZMod p))} (hr : Fails D f args) (outs : List (ZMod p)) : ¬ Realises P' (encodeL args) outs := by
  obtain ⟨tf, h1, h2, h3⟩ := hf.reduced
  obtain ⟨a, b⟩ := C69_fails (O := Oracle.any p Z) hf.decls hf.types h1 h2 hr
  exact C57_compiled_rejects_partial (O := Oracle.any p Z) hnm hord hp h3 (unpackOnly_free noFunctions_free).1 ho' (compileSource_some h1 h) hh ⟨a, exec_simple.1 b⟩ outs

/-- **C69** (nothing else is accepted). Whatever satisfies the circuit is the encoding of arguments and of what the source function returns on them, except for arguments on
which the source function meets an undefined operation: it returns nothing, and no assertion fails. -/
theorem C69_compiled_sound_partial (hnm : Function.Injective nm) (hord : Enumerates ord) (hp : 2 ^ 64 ≤ p) (hf : Compiled D ord nm HF err k f g')
    (ho' : ZStmt.OracleFreeL g'.body) (h : compileSource D ord freshName nm HF err H sem hash k f = some (P', false)) (hh : HashOk H sem hash g')
    {ins outs : List (ZMod p)} (hr : Realises P' ins outs) :
    ∃ args, HasTypeL (f.params.map fun q => q.1.ty) args ∧ encodeL args = ins ∧ ((∃ out, Returns D f args out ∧ encode out = outs) ∨ ((∀ out, ¬ Returns D f args out) ∧ ¬ Fails D f args)) := by
  obtain ⟨tf, h1, h2, h3⟩ := hf.reduced
  obtain ⟨args, a, b⟩ := C57_compiled_sound_partial hnm hord hp h3 (wideL_of_free _ ho') (compileSource_some h1 h) hh hr
  have ht : HasTypeL (tf.params.map TParam.ty) args := by
    rcases b with ⟨out, b, -⟩ | ⟨e, b⟩
    · exact b.1
    · exact b.1
  rw [(C68_reads hf.decls hf.types h1).1, List.map_map] at ht
  refine ⟨args, ht, a, ?_⟩
  subst a
  by_cases hR : ∃ out, Returns D f args out
  · obtain ⟨out, hout⟩ := hR
    exact .inl ⟨out, hout, (((C69_compiled_exact_partial hnm hord hp hf ho' h hh hout outs).1).1 hr).symm⟩
  · exact .inr ⟨fun out hout => hR ⟨out, hout⟩, fun hF => C69_compiled_rejects_partial hnm hord hp hf ho' h hh hF outs hr⟩

end Zok.Sem
