import Verif.Props.AnalysisFull
import Verif.Props.Reducer

/-
C57: programs with loops and function calls, compiled by the reducer and everything behind it.
-/

set_option linter.unusedSectionVars false
set_option linter.unusedSimpArgs false

namespace Zok.Typed
open Abi Pl
variable {p : ℕ} {Z : Type} [Fact p.Prime] {O : Oracle p Z} {nm : SId → ZId} {ord : List (TStmt (ZMod p)) → List (TStmt (ZMod p))}
variable {P : Program (ZMod p)} {k : ℕ} {f : SFun (ZMod p)} {g : TFun (ZMod p)}
variable [DecidableEq Z] {sem : SolverSem (ZMod p) Z} {hash : Stmt (ZMod p) Z → ℕ} {H : HintPasses p Z} {HF : Prop'.HintFolder p Z}
variable {err : String → RuntimeError} {g' : ZFun (ZMod p) Z} {P' : Prog (ZMod p) Z}

/-- The programs for which the reducer and all passes behind it are proved correct: they are well-typed, and accepted by the passes; no assignment of the reduced function
depends on the order in which the components of the assigned part are computed (`InOrder`); and the program behind `ZirPropagator` is one for which the back end is proved
correct. -/
structure Reduced (ord : List (TStmt (ZMod p)) → List (TStmt (ZMod p))) (nm : SId → ZId) (HF : Prop'.HintFolder p Z) (err : String → RuntimeError)
    (P : Program (ZMod p)) (k : ℕ) (f : SFun (ZMod p)) (g' : ZFun (ZMod p) Z) : Prop where
  functions : P.Wt
  typed : f.Wt
  reduced : ∃ g, reduce P k f = .ok g ∧ (∀ s ∈ g.body, s.InOrder) ∧
    ∃ g1 g2 g3, propagateT g = .ok g1 ∧ analyseTyped ord freshName g1 = some g2 ∧ flatFun nm g2 = some g3 ∧ Prop'.propagate HF err g3 = .ok g'
  compilable : Compilable g'

theorem Reduced.propagated (hf : Reduced ord nm HF err P k f g') : ∃ g, reduce P k f = .ok g ∧ Propagated ord freshName nm HF err g g' := by
  obtain ⟨g, h1, h2, g1, g2, g3, h3, h4, h5, h6⟩ := hf.reduced
  obtain ⟨s1, -, -, -, s2, s3, s4, s5, -⟩ := C56_shape hf.functions hf.typed h1
  exact ⟨g, h1, s1, s2, h2, s4, s3, s5, ⟨g1, g2, g3, h3, h4, h5, h6⟩, hf.compilable⟩

theorem compileReduced_some (h1 : reduce P k f = .ok g) (h : compileReduced ord freshName nm HF err H sem hash P k f = some (P', false)) :
    compilePropagated ord freshName nm HF err H sem hash g = some (P', false) := by
  simpa only [compileReduced, h1] using h

theorem reduced_unpackOnly (hP : P.Wt) (hf : f.Wt) (h : reduce P k f = .ok g) (hu : P.UnpackOnly O) : ∀ s ∈ g.body, s.UnpackOnly O := by
  intro s hs
  unfold TStmt.UnpackOnly
  split
  · obtain ⟨key, ns, ts, t, h1⟩ := (C56_shape hP hf h).2.2.2.2.2.2.2.2 _ _ _ _ hs
    exact hu _ _ _ _ _ h1
  · trivial

theorem reduced_unpackWithin {n : ℕ} (hP : P.Wt) (hf : f.Wt) (h : reduce P k f = .ok g) (hu : P.UnpackWithin n) : ∀ s ∈ g.body, s.UnpackWithin n := by
  intro s hs
  unfold TStmt.UnpackWithin
  split
  · obtain ⟨key, ns, ts, t, h1⟩ := (C56_shape hP hf h).2.2.2.2.2.2.2.2 _ _ _ _ hs
    exact hu _ _ _ _ _ h1
  · trivial

theorem reduced_oracleFree (hP : P.Wt) (hf : f.Wt) (h : reduce P k f = .ok g) (hu : P.OracleFree) : ∀ s ∈ g.body, s.OracleFree := by
  intro s hs
  unfold TStmt.OracleFree
  split
  · rintro rfl
    obtain ⟨key, ns, ts, t, h1⟩ := (C56_shape hP hf h).2.2.2.2.2.2.2.2 _ _ _ _ hs
    exact hu _ _ _ _ _ h1
  · trivial

theorem unpackOnly_free (hu : P.OracleFree) : P.UnpackOnly O ∧ P.UnpackSome O :=
  ⟨fun _ _ _ _ _ h => absurd h (hu _ _ _ _ _), fun _ _ _ _ _ h => absurd h (hu _ _ _ _ _)⟩

theorem unpackSome_any : P.UnpackSome (Oracle.any p Z) := fun key ns ts t n h x bl hb => by
  have := C54_unpack_admitted (p := p) (Z := Z) (.embed (.ident 0 .bool) .unpack [n] [])
  exact this x bl hb

/-- **C57** (soundness of the circuit). If the compiled circuit is satisfied with inputs `ins` and outputs `outs`, then `ins` is the encoding of arguments of the declared
types on which the program, with its loops and function calls, fails or returns the value encoded by `outs`. -/
theorem C57_compiled_sound_partial (hnm : Function.Injective nm) (hord : Enumerates ord) (hp : 2 ^ 64 ≤ p)
    (hf : Reduced ord nm HF err P k f g') (hw : ZStmt.WideUnpackL g'.body) (h : compileReduced ord freshName nm HF err H sem hash P k f = some (P', false))
    (hh : HashOk H sem hash g') {ins outs : List (ZMod p)} (hr : Realises P' ins outs) :
    ∃ args, encodeL args = ins ∧
      ((∃ out, ReturnsS (Oracle.any p Z) P f args out ∧ encode out = outs) ∨ ∃ e, FaultsS (Oracle.any p Z) P f args e) := by
  obtain ⟨g, h1, ha⟩ := hf.propagated
  obtain ⟨args, h2, h3⟩ := C55_compiled_sound_partial hnm freshName_inj hord hp ha hw (compileReduced_some h1 h) hh hr
  refine ⟨args, h2, ?_⟩
  rcases h3 with ⟨out, h3, h4⟩ | ⟨e, h3⟩
  · rcases C56_no_new_results hf.functions hf.typed unpackSome_any h1 h3 with h5 | h5
    · exact .inl ⟨out, h5, h4⟩
    · exact .inr h5
  · exact .inr (C56_no_new_failures hf.functions hf.typed unpackSome_any h1 h3)

/-- **C57** (completeness of the circuit). If the program returns `out` on `args`, and does not decompose field elements into more bits than the modulus has, then executing
the compiled circuit on the encoding of `args` succeeds, and returns the encoding of `out`. -/
theorem C57_compiled_complete_partial (hnm : Function.Injective nm) (hord : Enumerates ord) (hp : 2 ^ 64 ≤ p)
    (hf : Reduced ord nm HF err P k f g') (hs : P.UnpackWithin (Fld.requiredBits p))
    (h : compileReduced ord freshName nm HF err H sem hash P k f = some (P', false)) (hh : HashOk H sem hash g')
    {args : List (AVal (ZMod p))} {out : AVal (ZMod p)} (hr : ReturnsS (Oracle.honest sem) P f args out) :
    HonestlyRealises sem P' (encodeL args) (encode out) ∧ ExecutesTo sem P' (encodeL args) (encode out) := by
  obtain ⟨g, h1, ha⟩ := hf.propagated
  have hp2 : p ≠ 2 := by rintro rfl; norm_num at hp
  exact C55_compiled_complete_partial hnm freshName_inj hord hp ha (reduced_unpackWithin hf.functions hf.typed h1 hs) (compileReduced_some h1 h) hh
    ((C56_honest hp2 hf.functions hf.typed hs h1).results args out hr)

/-- **C57** (the circuit is the program). For a program without bit decompositions of field elements, and arguments of the declared types on which it does not fail: the
compiled circuit can be satisfied with the encoding of `args` and outputs `outs` if and only if `outs` is the encoding of what the program returns on `args`; and the same for
executing the circuit. -/
theorem C57_compiled_iff_partial (hnm : Function.Injective nm) (hord : Enumerates ord) (hp : 2 ^ 64 ≤ p)
    (hf : Reduced ord nm HF err P k f g') (ho : P.OracleFree) (ho' : ZStmt.OracleFreeL g'.body)
    (h : compileReduced ord freshName nm HF err H sem hash P k f = some (P', false)) (hh : HashOk H sem hash g')
    {args : List (AVal (ZMod p))} (ht : HasTypeL (f.params.map TParam.ty) args) (hn : ∀ e, ¬ FaultsS O P f args e) (outs : List (ZMod p)) :
    (Realises P' (encodeL args) outs ↔ ∃ out, ReturnsS O P f args out ∧ encode out = outs) ∧
    (ExecutesTo sem P' (encodeL args) outs ↔ ∃ out, ReturnsS O P f args out ∧ encode out = outs) := by
  obtain ⟨g, h1, ha⟩ := hf.propagated
  have hrep := C56_same_function (O := O) hf.functions hf.typed (unpackOnly_free ho).1 (unpackOnly_free ho).2 h1
  have he : ∀ out, ReturnsT O g args out ↔ ReturnsS O P f args out := fun out => ⟨fun h2 => by
    rcases hrep.noNewResults args out h2 with h3 | ⟨e, h3⟩
    · exact h3
    · exact absurd h3 (hn e), hrep.results args out⟩
  have := C55_compiled_iff_partial (O := O) hnm freshName_inj hord hp ha (reduced_oracleFree hf.functions hf.typed h1 ho) ho' (compileReduced_some h1 h) hh
    (by rw [reduce_types hf.functions hf.typed h1]; exact ht) (fun e h2 => by obtain ⟨e', h3⟩ := hrep.noNewFailures args e h2; exact hn e' h3) outs
  simpa only [he] using this

/-- **C57** (nothing is left to the prover). If a program without bit decompositions of field elements returns `out` on `args`, then the compiled circuit accepts the
encoding of `args` with the encoding of `out` and with no other outputs, and executing it returns the encoding of `out`. -/
theorem C57_compiled_exact_partial (hnm : Function.Injective nm) (hord : Enumerates ord) (hp : 2 ^ 64 ≤ p)
    (hf : Reduced ord nm HF err P k f g') (ho : P.OracleFree) (ho' : ZStmt.OracleFreeL g'.body)
    (h : compileReduced ord freshName nm HF err H sem hash P k f = some (P', false)) (hh : HashOk H sem hash g')
    {args : List (AVal (ZMod p))} {out : AVal (ZMod p)} (hr : ReturnsS O P f args out) (outs : List (ZMod p)) :
    (Realises P' (encodeL args) outs ↔ outs = encode out) ∧ (ExecutesTo sem P' (encodeL args) outs ↔ outs = encode out) := by
  obtain ⟨g, h1, ha⟩ := hf.propagated
  exact C55_compiled_exact_partial hnm freshName_inj hord hp ha (reduced_oracleFree hf.functions hf.typed h1 ho) ho' (compileReduced_some h1 h) hh
    (C56_results hf.functions hf.typed (unpackOnly_free ho).1 h1 hr) outs

/-- **C57** (assertions are enforced). No assignment satisfies the compiled circuit with the encoding of arguments on which an assertion of the program fails, be it in the
main function, in an iteration of a loop, or in a function which is called. -/
theorem C57_compiled_rejects_partial (hnm : Function.Injective nm) (hord : Enumerates ord) (hp : 2 ^ 64 ≤ p)
    (hf : Reduced ord nm HF err P k f g') (ho : P.UnpackOnly O) (ho' : ZStmt.OracleFreeL g'.body)
    (h : compileReduced ord freshName nm HF err H sem hash P k f = some (P', false))
    (hh : HashOk H sem hash g') {args : List (AVal (ZMod p))} (ha : FaultsS O P f args .assertionFailed) (outs : List (ZMod p)) : ¬ Realises P' (encodeL args) outs := by
  obtain ⟨g, h1, hk⟩ := hf.propagated
  exact C55_compiled_rejects_partial hnm freshName_inj hord hp hk (reduced_unpackOnly hf.functions hf.typed h1 ho) ho' (compileReduced_some h1 h) hh
    (C56_assertions hf.functions hf.typed ho h1 ha) outs

end Zok.Typed
