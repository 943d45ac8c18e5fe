import Verif.Lemmas.AnalysisSteps
import Verif.Props.FlattenTypes
import Verif.Props.VariableWrite
import Verif.Props.ConditionRedefiner
import Verif.Props.BooleanArray
import Verif.Props.Checkers
import Verif.Model.PipelineTyped

/-
C53: the passes over typed programs behind constant propagation, in sequence, and everything behind them.
-/

set_option linter.unusedSectionVars false
set_option linter.unusedSimpArgs false

namespace Zok.Typed
open Abi
variable {p : ℕ} {Z : Type} [Fact p.Prime] {O : Oracle p Z} {nm : SId → ZId} {cid : ℕ → TId} {ord : List (TStmt (ZMod p)) → List (TStmt (ZMod p))}
variable {f g : TFun (ZMod p)}

/-- The function in front of the checks, and behind them. -/
theorem analyseTyped_some (hord : Enumerates ord) (hw : f.Wt) (h : analyseTyped ord cid f = some g) : ∃ w, removeWrites ord (packComparisons f) = some w ∧ w.Wt ∧
    check .args w = some w ∧ check .bounds w = some w ∧ g = redefine cid w := by
  obtain ⟨w, h1, hw1⟩ := removeWrites_wt hord (packComparisons_wt hw)
  simp only [analyseTyped, h1] at h
  split at h
  · cases h
  · rename_i w1 h2
    cases C52_unchanged hw1 .args h2
    split at h
    · cases h
    · rename_i w2 h3
      cases C52_unchanged hw1 .bounds h3
      exact ⟨_, h1, hw1, h2, h3, (Option.some.inj h).symm⟩

theorem written_noCid (hord : Enumerates ord) (hn : NoCid cid f.vars) {w : TFun (ZMod p)} (h : removeWrites ord (packComparisons f) = some w) : NoCid cid w.vars :=
  fun x hx => hn x (packComparisons_vars x (removeWrites_vars hord h x hx))

theorem written_constantCalls (hord : Enumerates ord) (he : ConstantCalls f.body) {w : TFun (ZMod p)} (h : removeWrites ord (packComparisons f) = some w) :
    ConstantCalls w.body := by
  obtain ⟨b, h1, rfl⟩ := Option.map_eq_some_iff.1 h
  exact writeStmts_constantCalls hord h1 (packStmts_constantCalls he)

/-- **C53** (same function). If the passes accept a function, then the result can replace it: whatever the source returns is returned; whatever is returned is
returned by the source unless it fails; there are no new failures; and where an assertion of the source fails, an assertion fails. -/
theorem C53_same_function (hord : Enumerates ord) (hc : Function.Injective cid) (hw : f.Wt) (hn : NoCid cid f.vars) (he : ConstantCalls f.body)
    (h : analyseTyped ord cid f = some g) : Replaces O f g := by
  obtain ⟨w, h1, hw1, _, _, rfl⟩ := analyseTyped_some hord hw h
  exact (C51_same_function hw).trans ((C49_same_function hord (packComparisons_wt hw) h1).trans
    (C50_same_function hc hw1 (written_noCid hord hn h1) (written_constantCalls hord he h1)))

/-- **C53** (what is left). The result is well-typed, with the same signature; assignments have literals as indices; conditions are literals or variables; and
embedded functions still assign new variables. -/
theorem C53_shape (hord : Enumerates ord) (hw : f.Wt) (hn : NoCid cid f.vars) (h : analyseTyped ord cid f = some g) :
    g.Wt ∧ g.params = f.params ∧ g.ret = f.ret ∧ (∀ s ∈ g.body, s.SimpleConditions) ∧ (∀ a e, .definition a e ∈ g.body → a.ConstantIndices) ∧
    (FreshCalls (f.params.map TParam.id) f.body → FreshCalls (g.params.map TParam.id) g.body) := by
  obtain ⟨w, h1, hw1, _, _, rfl⟩ := analyseTyped_some hord hw h
  obtain ⟨c1, c2, c3, c4⟩ := C49_constant_indices hord h1
  obtain ⟨t1, t2, t3, t4⟩ := C50_typed (cid := cid) hw1 (written_noCid hord hn h1)
  refine ⟨t1, t2.trans c2, t3.trans c3, C50_simple_conditions cid w, fun a e hm => ?_, fun hf => t4 (c4 (packStmts_fresh hf))⟩
  rcases redefStmts_mem hw1.body hm with ⟨k, c, he⟩ | ⟨s, h2, k, he⟩
  · cases he
    intro i hi
    simp [TAssignee.indices] at hi
  · cases s <;> simp only [redefStmt] at he <;> cases he
    rename_i a0 e0
    have := c1 a0 e0 h2
    rw [redefA_const this]
    exact this

/-- **C53** (errors). The passes do not panic on well-typed functions; and they reject one only if one of the two checks of C52 rejects the function with comparisons
packed and variable indices removed. -/
theorem C53_rejected (hord : Enumerates ord) (hw : f.Wt) : (∃ g, analyseTyped ord cid f = some g) ↔
    ∃ w, removeWrites ord (packComparisons f) = some w ∧ check .args w = some w ∧ check .bounds w = some w := by
  constructor
  · rintro ⟨g, h⟩
    obtain ⟨w, h1, _, h2, h3, _⟩ := analyseTyped_some hord hw h
    exact ⟨w, h1, h2, h3⟩
  · rintro ⟨w, h1, h2, h3⟩
    exact ⟨redefine cid w, by simp only [analyseTyped, h1, h2, h3]⟩

/-! ### Together with everything behind them -/

section
open Pl
variable [DecidableEq Z] {sem : SolverSem (ZMod p) Z} {hash : Stmt (ZMod p) Z → ℕ} {H : HintPasses p Z} {HF : Prop'.HintFolder p Z}
variable {err : String → RuntimeError} {g' : ZFun (ZMod p) Z} {P' : Prog (ZMod p) Z}

/-- The functions for which all passes behind the constant propagation of typed programs are proved correct: `f` is well-typed, embedded functions are called with new
variables (or literal parts of them) on the left, and right sides do not read the variable they are assigned to, except for assignments to single components with
literal indices; names of conditions are not used otherwise; and the propagated flattened function `g'` meets the conditions of C47. -/
structure Analysed (ord : List (TStmt (ZMod p)) → List (TStmt (ZMod p))) (cid : ℕ → TId) (nm : SId → ZId) (HF : Prop'.HintFolder p Z) (err : String → RuntimeError)
    (f : TFun (ZMod p)) (g' : ZFun (ZMod p) Z) : Prop where
  typed : f.Wt
  inOrder : ∀ s ∈ f.body, s.InOrder
  fresh : FreshCalls (f.params.map TParam.id) f.body
  calls : ConstantCalls f.body
  names : NoCid cid f.vars
  propagated : ∃ h g, analyseTyped ord cid f = some h ∧ flatFun nm h = some g ∧ Prop'.propagate HF err g = .ok g'
  compilable : Compilable g'

theorem Analysed.accepted (hnm : Function.Injective nm) (hc : Function.Injective cid) (hord : Enumerates ord) (hf : Analysed ord cid nm HF err f g') :
    ∃ h, analyseTyped ord cid f = some h ∧ Accepted nm HF err h g' := by
  obtain ⟨h, g, h1, h2, h3⟩ := hf.propagated
  obtain ⟨s1, s2, s3, s4, s5, s6⟩ := C53_shape hord hf.typed hf.names h1
  refine ⟨h, h1, s1, ?_, s6 hf.fresh, ⟨g, h2, h3⟩, hf.compilable⟩
  obtain ⟨w, w1, _, _, _, rfl⟩ := analyseTyped_some hord hf.typed h1
  refine analysed_simultaneous hnm hc hord (packComparisons_wt hf.typed) (fun x hx => hf.names x (packComparisons_vars x hx)) ?_ w1 h2
  intro s hs
  obtain ⟨s, h4, rfl⟩ := List.mem_map.1 hs
  exact packStmt_inOrder (hf.inOrder s h4)

theorem analyseTyped_oracleFree (hord : Enumerates ord) (hw : f.Wt) (ho : ∀ s ∈ f.body, s.OracleFree) (h : analyseTyped ord cid f = some g) :
    ∀ s ∈ g.body, s.OracleFree := by
  obtain ⟨w, h1, hw1, _, _, rfl⟩ := analyseTyped_some hord hw h
  obtain ⟨b, h2, rfl⟩ := Option.map_eq_some_iff.1 h1
  refine redefStmts_oracleFree hw1.body (writeStmts_oracleFree hord h2 fun s hs => ?_)
  obtain ⟨s, h4, rfl⟩ := List.mem_map.1 hs
  exact packStmt_oracleFree (ho s h4)

theorem compileAnalysed_some (h1 : analyseTyped ord cid f = some g) (h : compileAnalysed ord cid nm HF err H sem hash f = some (P', false)) :
    compileTyped nm HF err H sem hash g = some (P', false) := by
  simpa only [compileAnalysed, h1] using h

/-- **C53** (soundness of the circuit). If the compiled circuit is satisfied with inputs `ins` and outputs `outs`, then `ins` is the encoding of arguments of the declared
types on which the typed source function fails or returns the value encoded by `outs`. -/
theorem C53_compiled_sound_partial (hnm : Function.Injective nm) (hc : Function.Injective cid) (hord : Enumerates ord) (hp : 2 ^ 64 ≤ p)
    (hf : Analysed ord cid nm HF err f g') (hw : ZStmt.WideUnpackL g'.body) (h : compileAnalysed ord cid nm HF err H sem hash f = some (P', false))
    (hh : HashOk H sem hash g') {ins outs : List (ZMod p)} (hr : Realises P' ins outs) :
    ∃ args, encodeL args = ins ∧
      ((∃ out, ReturnsT (Oracle.any p Z) f args out ∧ encode out = outs) ∨ ∃ e, FaultsT (Oracle.any p Z) f args e) := by
  obtain ⟨k, h1, ha⟩ := hf.accepted hnm hc hord
  have hrep := C53_same_function (O := Oracle.any p Z) hord hc hf.typed hf.names hf.calls h1
  obtain ⟨args, h2, h3⟩ := C48_compiled_sound_partial hnm hp ha hw (compileAnalysed_some h1 h) hh hr
  refine ⟨args, h2, ?_⟩
  rcases h3 with ⟨out, h3, h4⟩ | ⟨e, h3⟩
  · rcases hrep.noNewResults args out h3 with h5 | h5
    · exact .inl ⟨out, h5, h4⟩
    · exact .inr h5
  · exact .inr (hrep.noNewFailures args e h3)

/-- **C53** (completeness of the circuit). If the typed source function returns `out` on `args`, then executing the compiled circuit on the encoding of `args` succeeds,
and returns the encoding of `out`. -/
theorem C53_compiled_complete_partial (hnm : Function.Injective nm) (hc : Function.Injective cid) (hord : Enumerates ord) (hp : 2 ^ 64 ≤ p)
    (hf : Analysed ord cid nm HF err f g') (h : compileAnalysed ord cid nm HF err H sem hash f = some (P', false)) (hh : HashOk H sem hash g')
    {args : List (AVal (ZMod p))} {out : AVal (ZMod p)} (hr : ReturnsT (Oracle.honest sem) f args out) :
    HonestlyRealises sem P' (encodeL args) (encode out) ∧ ExecutesTo sem P' (encodeL args) (encode out) := by
  obtain ⟨k, h1, ha⟩ := hf.accepted hnm hc hord
  exact C48_compiled_complete_partial hnm hp ha (compileAnalysed_some h1 h) hh
    ((C53_same_function hord hc hf.typed hf.names hf.calls h1).results args out hr)

/-- **C53** (the circuit is the source function). For a typed function without bit decompositions of field elements, and arguments of the declared types on which it does
not fail: the compiled circuit can be satisfied with the encoding of `args` and outputs `outs` if and only if `outs` is the encoding of what the source returns on `args`;
and the same for executing the circuit. -/
theorem C53_compiled_iff_partial (hnm : Function.Injective nm) (hc : Function.Injective cid) (hord : Enumerates ord) (hp : 2 ^ 64 ≤ p)
    (hf : Analysed ord cid nm HF err f g') (ho : ∀ s ∈ f.body, s.OracleFree) (ho' : ZStmt.OracleFreeL g'.body)
    (h : compileAnalysed ord cid nm HF err H sem hash f = some (P', false)) (hh : HashOk H sem hash g')
    {args : List (AVal (ZMod p))} (ht : HasTypeL (f.params.map TParam.ty) args) (hn : ∀ e, ¬ FaultsT O f args e) (outs : List (ZMod p)) :
    (Realises P' (encodeL args) outs ↔ ∃ out, ReturnsT O f args out ∧ encode out = outs) ∧
    (ExecutesTo sem P' (encodeL args) outs ↔ ∃ out, ReturnsT O f args out ∧ encode out = outs) := by
  obtain ⟨k, h1, ha⟩ := hf.accepted hnm hc hord
  have hrep := C53_same_function (O := O) hord hc hf.typed hf.names hf.calls h1
  have he : ∀ out, ReturnsT O k args out ↔ ReturnsT O f args out := fun out => ⟨fun h2 => by
    rcases hrep.noNewResults args out h2 with h3 | ⟨e, h3⟩
    · exact h3
    · exact absurd h3 (hn e), hrep.results args out⟩
  have hs := C53_shape hord hf.typed hf.names h1
  have := C48_compiled_iff_partial (O := O) hnm hp ha (analyseTyped_oracleFree hord hf.typed ho h1) ho' (compileAnalysed_some h1 h) hh
    (by rw [hs.2.1]; exact ht) (fun e h2 => by obtain ⟨e', h3⟩ := hrep.noNewFailures args e h2; exact hn e' h3) outs
  simpa only [he] using this

/-- **C53** (nothing is left to the prover). If a typed function without bit decompositions of field elements returns `out` on `args`, then the compiled circuit accepts
the encoding of `args` with the encoding of `out` and with no other outputs, and executing it returns the encoding of `out`. -/
theorem C53_compiled_exact_partial (hnm : Function.Injective nm) (hc : Function.Injective cid) (hord : Enumerates ord) (hp : 2 ^ 64 ≤ p)
    (hf : Analysed ord cid nm HF err f g') (ho : ∀ s ∈ f.body, s.OracleFree) (ho' : ZStmt.OracleFreeL g'.body)
    (h : compileAnalysed ord cid nm HF err H sem hash f = some (P', false)) (hh : HashOk H sem hash g')
    {args : List (AVal (ZMod p))} {out : AVal (ZMod p)} (hr : ReturnsT O f args out) (outs : List (ZMod p)) :
    (Realises P' (encodeL args) outs ↔ outs = encode out) ∧ (ExecutesTo sem P' (encodeL args) outs ↔ outs = encode out) := by
  obtain ⟨k, h1, ha⟩ := hf.accepted hnm hc hord
  exact C48_compiled_exact_partial hnm hp ha (analyseTyped_oracleFree hord hf.typed ho h1) ho' (compileAnalysed_some h1 h) hh
    ((C53_same_function hord hc hf.typed hf.names hf.calls h1).results args out hr) outs

/-- **C53** (assertions are enforced). No assignment satisfies the compiled circuit with the encoding of arguments on which an assertion of the typed source function
fails. The propagated function leaves no choice to the prover. -/
theorem C53_compiled_rejects_partial (hnm : Function.Injective nm) (hc : Function.Injective cid) (hord : Enumerates ord) (hp : 2 ^ 64 ≤ p)
    (hf : Analysed ord cid nm HF err f g') (ho' : ZStmt.OracleFreeL g'.body) (h : compileAnalysed ord cid nm HF err H sem hash f = some (P', false))
    (hh : HashOk H sem hash g') {args : List (AVal (ZMod p))} (ha : AssertFailsT O f args) (outs : List (ZMod p)) : ¬ Realises P' (encodeL args) outs := by
  obtain ⟨k, h1, hk⟩ := hf.accepted hnm hc hord
  exact C48_compiled_rejects_partial hnm hp hk ho' (compileAnalysed_some h1 h) hh
    ((C53_same_function hord hc hf.typed hf.names hf.calls h1).assertions args ha) outs

end

end Zok.Typed
