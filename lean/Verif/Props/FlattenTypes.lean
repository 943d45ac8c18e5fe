import Verif.Model.PipelineTyped
import Verif.Props.Pipeline
import Verif.Props.Abi
import Verif.Lemmas.FlattenTypesTotalStmt
import Verif.Lemmas.TypedDet

/-
C48: turning arrays, structs and tuples into their components. `f` is a typed function, `g` the ZIR function `flatFun` makes of it; arguments and results
of `g` are the ABI encodings (`encodeL`, `encode`) of those of `f`. `nm` numbers the identifiers of ZIR, which in the code are the source identifiers
themselves. The condition `Simultaneous` is needed: see `C48_partial_assignment_miscompiled`.
-/

set_option linter.unusedSectionVars false

namespace Zok.Typed
open Abi
variable {p : ℕ} {Z : Type} [Fact p.Prime] {O : Oracle p Z} {nm : SId → ZId} {f : TFun (ZMod p)} {g : ZFun (ZMod p) Z}

/-- **C48** (results are kept). If the source returns `out` on `args`, then the flattened function returns the encoding of `out` on the encoding of `args`. -/
theorem C48_results_kept_partial (hnm : Function.Injective nm) (hp : 2 ^ 64 ≤ p) (hw : f.Wt) (hsim : ∀ s ∈ f.body, s.Simultaneous nm)
    (hf : flatFun nm f = some g) {args : List (AVal (ZMod p))} {out : AVal (ZMod p)} (h : ReturnsT O f args out) :
    Returns O g (encodeL args) (encode out) := fun_forward hnm hp hw hsim hf h

/-- **C48** (no new results). Whatever the flattened function returns is the encoding of what the source returns on the arguments encoded, unless the
source fails on these arguments. In particular it accepts no arguments but encodings of values of the declared types. -/
theorem C48_no_new_results_partial (hnm : Function.Injective nm) (hw : f.Wt) (hsim : ∀ s ∈ f.body, s.Simultaneous nm)
    (hf : flatFun nm f = some g) {raw outs : List (ZMod p)} (h : Returns O g raw outs) :
    ∃ args, encodeL args = raw ∧ ((∃ out, ReturnsT O f args out ∧ encode out = outs) ∨ ∃ e, FaultsT O f args e) := fun_backward hnm hw hsim hf h

/-- **C48** (no new failures). The flattened function fails only on encodings of arguments on which the source fails. -/
theorem C48_no_new_failures_partial (hnm : Function.Injective nm) (hw : f.Wt) (hsim : ∀ s ∈ f.body, s.Simultaneous nm)
    (hf : flatFun nm f = some g) {raw : List (ZMod p)} {e : Fault} (h : Faults O g raw e) :
    ∃ args e', encodeL args = raw ∧ FaultsT O f args e' := fun_faults hnm hw hsim hf h

/-- **C48** (assertions are kept). If an assertion of the source fails on `args`, then the flattened function fails on their encoding, at an assertion. -/
theorem C48_assertions_kept_partial (hnm : Function.Injective nm) (hp : 2 ^ 64 ≤ p) (hw : f.Wt) (hsim : ∀ s ∈ f.body, s.Simultaneous nm)
    (hf : flatFun nm f = some g) {args : List (AVal (ZMod p))} (h : AssertFailsT O f args) : Faults O g (encodeL args) .assertionFailed :=
  (h.flat hnm hp hw hsim hf).faults

/-- **C48** (equivalence). On arguments on which the source does not fail, source and flattened function return the same. -/
theorem C48_iff_partial (hnm : Function.Injective nm) (hp : 2 ^ 64 ≤ p) (hw : f.Wt) (hsim : ∀ s ∈ f.body, s.Simultaneous nm)
    (hf : flatFun nm f = some g) {args : List (AVal (ZMod p))} (ht : HasTypeL (f.params.map TParam.ty) args) (hn : ∀ e, ¬ FaultsT O f args e)
    (outs : List (ZMod p)) : Returns O g (encodeL args) outs ↔ ∃ out, ReturnsT O f args out ∧ encode out = outs := by
  constructor
  · intro h
    obtain ⟨args', he, h1⟩ := fun_backward hnm hw hsim hf h
    have ht' : HasTypeL (f.params.map TParam.ty) args' := by
      rcases h1 with ⟨_, h1, _⟩ | ⟨_, h1⟩
      · exact h1.1
      · exact h1.1
    have := C27_injective_values hp _ _ _ ht' ht he
    subst this
    rcases h1 with h1 | ⟨e, h1⟩
    · exact h1
    · exact absurd h1 (hn e)
  · rintro ⟨out, h, rfl⟩
    exact fun_forward hnm hp hw hsim hf h

/-- **C48** (no panic). The flattening of a well-typed function in which constant indices are in bounds, and dynamic indices are into non-empty arrays of
elements with at least one component, does not panic. `C48_empty_elements_panic` shows the need of the latter. -/
theorem C48_no_panic (hw : f.Wt) (hs : ∀ s ∈ f.body, s.Selects nm) : ∃ g : ZFun (ZMod p) Z, flatFun nm f = some g := flatFun_total hw hs

/-- **C48** (types). The flattened function is well-typed, as constant propagation needs it: operands have the types of their operators, and
embedded functions assign new variables. -/
theorem C48_typed (hnm : Function.Injective nm) {ar : Z → ℕ} (hw : f.Wt) (hc : FreshCalls (f.params.map TParam.id) f.body)
    (hf : flatFun nm f = some g) : TyFun ar g := flatFun_typed hnm hw hc hf

theorem flatParams_priv : ∀ {qs : List TParam} {ps : List ZParam}, (∀ q ∈ qs, TypeOk q.ty) → flatParams nm qs = some ps →
    ps.map ZParam.priv = qs.flatMap fun q => List.replicate ((primCount q.ty).getD 0) q.priv
  | [], ps, _, h => by simp only [flatParams] at h; cases h; rfl
  | q :: qs, ps, ht, h => by
    simp only [flatParams] at h
    split at h
    · rename_i as bs h1 h2
      cases h
      obtain ⟨c, hc⟩ := Option.isSome_iff_exists.1 (ht q List.mem_cons_self).2
      obtain ⟨l, h3, h4⟩ := flatIds_len q.ty c (.basic q.id) hc
      rw [h1] at h3
      cases h3
      rw [List.map_append, flatParams_priv (fun q hq => ht q (List.mem_cons_of_mem _ hq)) h2, List.flatMap_cons, hc]
      simp only [List.map_map, Option.getD_some]
      rw [← h4]
      congr 1
      exact List.eq_replicate_iff.2 ⟨by simp, by simp⟩
    · cases h

/-- **C48** (signature). The parameters are the components of the source parameters, in order: as many for each as its ABI encoding has elements, and
private if the source parameter is. The number of results is the number of elements of the ABI encoding of a result. -/
theorem C48_signature (hw : f.Wt) (hf : flatFun nm f = some g) :
    g.params.map ZParam.priv = f.params.flatMap (fun q => List.replicate ((primCount q.ty).getD 0) q.priv) ∧
    primCount f.ret = some g.returnCount := by
  obtain ⟨h1, h2, h3⟩ := flatFun_some hf
  exact ⟨flatParams_priv hw.params h1, h3⟩

/-! ### Together with all passes behind it -/

section
open Pl
variable [DecidableEq Z] {sem : SolverSem (ZMod p) Z} {hash : Stmt (ZMod p) Z → ℕ} {H : HintPasses p Z} {HF : Prop'.HintFolder p Z}
variable {err : String → RuntimeError} {g' : ZFun (ZMod p) Z} {P' : Prog (ZMod p) Z}

/-- The functions for which the passes from the flattening of types on are proved correct: `f` is well-typed and in static single assignment form as
far as the flattening and the propagation need it, and the propagated flattened function `g'` meets the conditions of C47. -/
structure Accepted (nm : SId → ZId) (HF : Prop'.HintFolder p Z) (err : String → RuntimeError) (f : TFun (ZMod p)) (g' : ZFun (ZMod p) Z) : Prop where
  typed : f.Wt
  simultaneous : ∀ s ∈ f.body, s.Simultaneous nm
  fresh : FreshCalls (f.params.map TParam.id) f.body
  propagated : ∃ g, flatFun nm f = some g ∧ Prop'.propagate HF err g = .ok g'
  compilable : Compilable g'

theorem compileTyped_some {g : ZFun (ZMod p) Z} (h1 : flatFun nm f = some g) (h : compileTyped nm HF err H sem hash f = some (P', false)) :
    compileFlattened HF err H sem hash g = some (P', false) := by
  simpa only [compileTyped, h1] using h

theorem big_two (hp : 2 ^ 64 ≤ p) : 2 < p := lt_of_lt_of_le (by norm_num) hp

/-- **C48** (soundness of the circuit). Whatever satisfies the compiled circuit is the encoding of arguments of the declared types and of what the typed
source function returns on them, except on arguments on which the source function can fail. -/
theorem C48_compiled_sound_partial (hnm : Function.Injective nm) (hp : 2 ^ 64 ≤ p) (hf : Accepted nm HF err f g') (hw : ZStmt.WideUnpackL g'.body)
    (h : compileTyped nm HF err H sem hash f = some (P', false)) (hh : HashOk H sem hash g') {ins outs : List (ZMod p)} (hr : Realises P' ins outs) :
    ∃ args, encodeL args = ins ∧
      ((∃ out, ReturnsT (Oracle.any p Z) f args out ∧ encode out = outs) ∨ ∃ e, FaultsT (Oracle.any p Z) f args e) := by
  obtain ⟨g, h1, h2⟩ := hf.propagated
  have hb := noAsmL_of (flatStmts_noAsm (flatFun_some h1).2.1).1
  rcases C47_flattened_sound_partial (ar := fun _ => 0) (big_two hp) hb (C48_typed hnm hf.typed hf.fresh h1) h2 hf.compilable hw
    (compileTyped_some h1 h) hh hr with h3 | ⟨e, h3⟩
  · exact C48_no_new_results_partial hnm hf.typed hf.simultaneous h1 h3
  · obtain ⟨args, e', h4, h5⟩ := C48_no_new_failures_partial hnm hf.typed hf.simultaneous h1 h3
    exact ⟨args, h4, .inr ⟨e', h5⟩⟩

/-- **C48** (completeness of the circuit). If the typed source function returns `out` on `args`, then executing the compiled circuit on the encoding of
`args` succeeds, and returns the encoding of `out`. -/
theorem C48_compiled_complete_partial (hnm : Function.Injective nm) (hp : 2 ^ 64 ≤ p) (hf : Accepted nm HF err f g')
    (h : compileTyped nm HF err H sem hash f = some (P', false)) (hh : HashOk H sem hash g') {args : List (AVal (ZMod p))} {out : AVal (ZMod p)}
    (hr : ReturnsT (Oracle.honest sem) f args out) :
    HonestlyRealises sem P' (encodeL args) (encode out) ∧ ExecutesTo sem P' (encodeL args) (encode out) := by
  obtain ⟨g, h1, h2⟩ := hf.propagated
  have hb := noAsmL_of (flatStmts_noAsm (flatFun_some h1).2.1).1
  exact C47_flattened_complete_partial (ar := fun _ => 0) (big_two hp) hb (C48_typed hnm hf.typed hf.fresh h1) h2 hf.compilable
    (compileTyped_some h1 h) hh (C48_results_kept_partial hnm hp hf.typed hf.simultaneous h1 hr)

/-- **C48** (the circuit is the source function). For a typed function without bit decompositions of field elements, and arguments of the declared
types on which it does not fail: the compiled circuit can be satisfied with the encoding of `args` and outputs `outs` if and only if `outs` is the
encoding of what the source returns on `args`; and the same for executing the circuit. -/
theorem C48_compiled_iff_partial (hnm : Function.Injective nm) (hp : 2 ^ 64 ≤ p) (hf : Accepted nm HF err f g') (ho : ∀ s ∈ f.body, s.OracleFree)
    (ho' : ZStmt.OracleFreeL g'.body) (h : compileTyped nm HF err H sem hash f = some (P', false)) (hh : HashOk H sem hash g')
    {args : List (AVal (ZMod p))} (ht : HasTypeL (f.params.map TParam.ty) args) (hn : ∀ e, ¬ FaultsT O f args e) (outs : List (ZMod p)) :
    (Realises P' (encodeL args) outs ↔ ∃ out, ReturnsT O f args out ∧ encode out = outs) ∧
    (ExecutesTo sem P' (encodeL args) outs ↔ ∃ out, ReturnsT O f args out ∧ encode out = outs) := by
  obtain ⟨g, h1, h2⟩ := hf.propagated
  have hb := freeL_of ((flatStmts_noAsm (flatFun_some h1).2.1).2 ho)
  rw [← C48_iff_partial hnm hp hf.typed hf.simultaneous h1 ht hn outs]
  refine C47_flattened_iff_partial (ar := fun _ => 0) (big_two hp) hb (C48_typed hnm hf.typed hf.fresh h1) h2 hf.compilable ho'
    (compileTyped_some h1 h) hh ?_
  intro e he
  obtain ⟨args', e', h4, h5⟩ := C48_no_new_failures_partial hnm hf.typed hf.simultaneous h1 he
  have := C27_injective_values hp _ _ _ h5.1 ht h4
  subst this
  exact hn e' h5

/-- **C48** (nothing is left to the prover). If a typed function without bit decompositions of field elements returns `out` on `args`, then the compiled
circuit accepts the encoding of `args` with the encoding of `out` and with no other outputs, and executing it returns the encoding of `out`. -/
theorem C48_compiled_exact_partial (hnm : Function.Injective nm) (hp : 2 ^ 64 ≤ p) (hf : Accepted nm HF err f g') (ho : ∀ s ∈ f.body, s.OracleFree)
    (ho' : ZStmt.OracleFreeL g'.body) (h : compileTyped nm HF err H sem hash f = some (P', false)) (hh : HashOk H sem hash g')
    {args : List (AVal (ZMod p))} {out : AVal (ZMod p)} (hr : ReturnsT O f args out) (outs : List (ZMod p)) :
    (Realises P' (encodeL args) outs ↔ outs = encode out) ∧ (ExecutesTo sem P' (encodeL args) outs ↔ outs = encode out) := by
  have hi := C48_compiled_iff_partial hnm hp hf ho ho' h hh hr.1 (fun e => hr.not_faults (O' := O) ho e) outs
  have he : (∃ out', ReturnsT O f args out' ∧ encode out' = outs) ↔ outs = encode out :=
    ⟨fun ⟨out', h1, h2⟩ => by rw [← h2, hr.unique ho h1], fun h => ⟨out, hr, h.symm⟩⟩
  rwa [he] at hi

/-- **C48** (assertions are enforced). No assignment satisfies the compiled circuit with the encoding of arguments on which an assertion of the typed
source function fails. The propagated function leaves no choice to the prover. -/
theorem C48_compiled_rejects_partial (hnm : Function.Injective nm) (hp : 2 ^ 64 ≤ p) (hf : Accepted nm HF err f g')
    (ho' : ZStmt.OracleFreeL g'.body) (h : compileTyped nm HF err H sem hash f = some (P', false)) (hh : HashOk H sem hash g')
    {args : List (AVal (ZMod p))} (ha : AssertFailsT O f args) (outs : List (ZMod p)) : ¬ Realises P' (encodeL args) outs := by
  obtain ⟨g, h1, h2⟩ := hf.propagated
  have hb := noAsmL_of (flatStmts_noAsm (flatFun_some h1).2.1).1
  exact C47_flattened_rejects_partial (ar := fun _ => 0) (big_two hp) hb (C48_typed hnm hf.typed hf.fresh h1) h2 hf.compilable ho'
    (compileTyped_some h1 h) hh (ha.flat hnm hp hf.typed hf.simultaneous h1) outs

end

end Zok.Typed
