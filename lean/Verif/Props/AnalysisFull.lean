import Verif.Props.Analysis
import Verif.Props.TypedPropagator

/-
C55: constant propagation of typed programs, together with everything behind it.
-/

set_option linter.unusedSectionVars false
set_option linter.unusedSimpArgs false

namespace Zok.Typed
open Abi Pl
variable {p : ℕ} {Z : Type} [Fact p.Prime] {O : Oracle p Z} {nm : SId → ZId} {cid : ℕ → TId} {ord : List (TStmt (ZMod p)) → List (TStmt (ZMod p))}
variable {f g : TFun (ZMod p)}
variable [DecidableEq Z] {sem : SolverSem (ZMod p) Z} {hash : Stmt (ZMod p) Z → ℕ} {H : HintPasses p Z} {HF : Prop'.HintFolder p Z}
variable {err : String → RuntimeError} {g' : ZFun (ZMod p) Z} {P' : Prog (ZMod p) Z}

/-- The functions for which constant propagation and all passes behind it are proved correct. The conditions are those of C53, but on the source in front of the
propagation, and the arguments of embedded functions have the types of their parameters. -/
structure Propagated (ord : List (TStmt (ZMod p)) → List (TStmt (ZMod p))) (cid : ℕ → TId) (nm : SId → ZId) (HF : Prop'.HintFolder p Z) (err : String → RuntimeError)
    (f : TFun (ZMod p)) (g' : ZFun (ZMod p) Z) : Prop where
  typed : f.Wt
  args : ∀ s ∈ f.body, s.ArgsTyped
  inOrder : ∀ s ∈ f.body, s.InOrder
  fresh : FreshCalls (f.params.map TParam.id) f.body
  calls : ConstantCalls f.body
  names : NoCid cid f.vars
  propagated : ∃ k h g, propagateT f = .ok k ∧ analyseTyped ord cid k = some h ∧ flatFun nm h = some g ∧ Prop'.propagate HF err g = .ok g'
  compilable : Compilable g'

theorem Propagated.analysed (hf : Propagated ord cid nm HF err f g') : ∃ k, propagateT f = .ok k ∧ Analysed ord cid nm HF err k g' := by
  obtain ⟨k, h, g, h1, h2, h3, h4⟩ := hf.propagated
  obtain ⟨s1, -, -, -, s5, s6, s7, s8, -⟩ := C54_shape hf.typed hf.args h1
  exact ⟨k, h1, s1, s8 hf.inOrder, s7 hf.fresh, s6 hf.calls, fun x hx => hf.names x (s5 x hx), ⟨h, g, h2, h3, h4⟩, hf.compilable⟩

theorem compilePropagated_some (h1 : propagateT f = .ok g) (h : compilePropagated ord cid nm HF err H sem hash f = some (P', false)) :
    compileAnalysed ord cid nm HF err H sem hash g = some (P', false) := by
  simpa only [compilePropagated, h1] using h

/-- **C55** (soundness of the circuit). If the compiled circuit is satisfied with inputs `ins` and outputs `outs`, then `ins` is the encoding of arguments of the declared
types on which the typed source function, in front of constant propagation, fails or returns the value encoded by `outs`. -/
theorem C55_compiled_sound_partial (hnm : Function.Injective nm) (hc : Function.Injective cid) (hord : Enumerates ord) (hp : 2 ^ 64 ≤ p)
    (hf : Propagated ord cid nm HF err f g') (hw : ZStmt.WideUnpackL g'.body) (h : compilePropagated ord cid nm HF err H sem hash f = some (P', false))
    (hh : HashOk H sem hash g') {ins outs : List (ZMod p)} (hr : Realises P' ins outs) :
    ∃ args, encodeL args = ins ∧
      ((∃ out, ReturnsT (Oracle.any p Z) f args out ∧ encode out = outs) ∨ ∃ e, FaultsT (Oracle.any p Z) f args e) := by
  obtain ⟨k, h1, ha⟩ := hf.analysed
  have hu : ∀ s ∈ f.body, s.UnpackSome (Oracle.any p Z) := fun s _ => C54_unpack_admitted s
  obtain ⟨args, h2, h3⟩ := C53_compiled_sound_partial hnm hc hord hp ha hw (compilePropagated_some h1 h) hh hr
  refine ⟨args, h2, ?_⟩
  rcases h3 with ⟨out, h3, h4⟩ | ⟨e, h3⟩
  · rcases C54_no_new_results hf.typed hf.args hu h1 h3 with h5 | h5
    · exact .inl ⟨out, h5, h4⟩
    · exact .inr h5
  · exact .inr (C54_no_new_failures hf.typed hf.args hu h1 h3)

/-- **C55** (completeness of the circuit). If the typed source function returns `out` on `args`, and does not decompose field elements into more bits than the modulus has,
then executing the compiled circuit on the encoding of `args` succeeds, and returns the encoding of `out`. -/
theorem C55_compiled_complete_partial (hnm : Function.Injective nm) (hc : Function.Injective cid) (hord : Enumerates ord) (hp : 2 ^ 64 ≤ p)
    (hf : Propagated ord cid nm HF err f g') (hs : ∀ s ∈ f.body, s.UnpackWithin (Fld.requiredBits p))
    (h : compilePropagated ord cid nm HF err H sem hash f = some (P', false)) (hh : HashOk H sem hash g')
    {args : List (AVal (ZMod p))} {out : AVal (ZMod p)} (hr : ReturnsT (Oracle.honest sem) f args out) :
    HonestlyRealises sem P' (encodeL args) (encode out) ∧ ExecutesTo sem P' (encodeL args) (encode out) := by
  obtain ⟨k, h1, ha⟩ := hf.analysed
  have hp2 : p ≠ 2 := by rintro rfl; norm_num at hp
  exact C53_compiled_complete_partial hnm hc hord hp ha (compilePropagated_some h1 h) hh ((C54_honest hp2 hf.typed hf.args hs h1).results args out hr)

/-- **C55** (the circuit is the source function). For a typed function without bit decompositions of field elements, and arguments of the declared types on which it does
not fail: the compiled circuit can be satisfied with the encoding of `args` and outputs `outs` if and only if `outs` is the encoding of what the source returns on `args`;
and the same for executing the circuit. -/
theorem C55_compiled_iff_partial (hnm : Function.Injective nm) (hc : Function.Injective cid) (hord : Enumerates ord) (hp : 2 ^ 64 ≤ p)
    (hf : Propagated ord cid nm HF err f g') (ho : ∀ s ∈ f.body, s.OracleFree) (ho' : ZStmt.OracleFreeL g'.body)
    (h : compilePropagated ord cid nm HF err H sem hash f = some (P', false)) (hh : HashOk H sem hash g')
    {args : List (AVal (ZMod p))} (ht : HasTypeL (f.params.map TParam.ty) args) (hn : ∀ e, ¬ FaultsT O f args e) (outs : List (ZMod p)) :
    (Realises P' (encodeL args) outs ↔ ∃ out, ReturnsT O f args out ∧ encode out = outs) ∧
    (ExecutesTo sem P' (encodeL args) outs ↔ ∃ out, ReturnsT O f args out ∧ encode out = outs) := by
  obtain ⟨k, h1, ha⟩ := hf.analysed
  have hrep : Replaces O f k := C54_same_function hf.typed hf.args (fun s hs => C54_unpack_free (ho s hs)) h1
  have he : ∀ out, ReturnsT O k args out ↔ ReturnsT O f args out := fun out => ⟨fun h2 => by
    rcases hrep.noNewResults args out h2 with h3 | ⟨e, h3⟩
    · exact h3
    · exact absurd h3 (hn e), hrep.results args out⟩
  obtain ⟨-, s2, -, -, -, -, -, -, s9⟩ := C54_shape hf.typed hf.args h1
  have := C53_compiled_iff_partial (O := O) hnm hc hord hp ha (s9 ho) ho' (compilePropagated_some h1 h) hh
    (by rw [s2]; exact ht) (fun e h2 => by obtain ⟨e', h3⟩ := hrep.noNewFailures args e h2; exact hn e' h3) outs
  simpa only [he] using this

/-- **C55** (nothing is left to the prover). If a typed function without bit decompositions of field elements returns `out` on `args`, then the compiled circuit accepts
the encoding of `args` with the encoding of `out` and with no other outputs, and executing it returns the encoding of `out`. -/
theorem C55_compiled_exact_partial (hnm : Function.Injective nm) (hc : Function.Injective cid) (hord : Enumerates ord) (hp : 2 ^ 64 ≤ p)
    (hf : Propagated ord cid nm HF err f g') (ho : ∀ s ∈ f.body, s.OracleFree) (ho' : ZStmt.OracleFreeL g'.body)
    (h : compilePropagated ord cid nm HF err H sem hash f = some (P', false)) (hh : HashOk H sem hash g')
    {args : List (AVal (ZMod p))} {out : AVal (ZMod p)} (hr : ReturnsT O f args out) (outs : List (ZMod p)) :
    (Realises P' (encodeL args) outs ↔ outs = encode out) ∧ (ExecutesTo sem P' (encodeL args) outs ↔ outs = encode out) := by
  obtain ⟨k, h1, ha⟩ := hf.analysed
  obtain ⟨-, -, -, -, -, -, -, -, s9⟩ := C54_shape hf.typed hf.args h1
  exact C53_compiled_exact_partial hnm hc hord hp ha (s9 ho) ho' (compilePropagated_some h1 h) hh
    (C54_results hf.typed hf.args (fun s hs => (C54_unpack_free (ho s hs)).1) h1 hr) outs

/-- **C55** (assertions are enforced). No assignment satisfies the compiled circuit with the encoding of arguments on which an assertion of the typed source function
fails. The propagated function leaves no choice to the prover. -/
theorem C55_compiled_rejects_partial (hnm : Function.Injective nm) (hc : Function.Injective cid) (hord : Enumerates ord) (hp : 2 ^ 64 ≤ p)
    (hf : Propagated ord cid nm HF err f g') (ho : ∀ s ∈ f.body, s.UnpackOnly O) (ho' : ZStmt.OracleFreeL g'.body)
    (h : compilePropagated ord cid nm HF err H sem hash f = some (P', false))
    (hh : HashOk H sem hash g') {args : List (AVal (ZMod p))} (ha : AssertFailsT O f args) (outs : List (ZMod p)) : ¬ Realises P' (encodeL args) outs := by
  obtain ⟨k, h1, hk⟩ := hf.analysed
  exact C53_compiled_rejects_partial hnm hc hord hp hk ho' (compilePropagated_some h1 h) hh (C54_assertions hf.typed hf.args ho h1 ha) outs

end Zok.Typed
