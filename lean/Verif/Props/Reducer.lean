import Verif.Lemmas.ReducerMain
import Verif.Lemmas.ReducerSteps
import Verif.Props.TypedPropagator

/-
C56: the reducer, which unrolls loops, inlines calls and propagates constants. `P` are the functions of a program, `f` is its main function, and `g` what the reducer
makes of it.
-/

set_option linter.unusedSectionVars false
set_option linter.unusedSimpArgs false

namespace Zok.Typed
open Abi
variable {p : ℕ} {Z : Type} [Fact p.Prime] {O : Oracle p Z} {P : Program (ZMod p)} {k : ℕ} {f : SFun (ZMod p)} {g : TFun (ZMod p)}

theorem reduce_types (hP : P.Wt) (hf : f.Wt) (h : reduce P k f = .ok g) : g.params.map TParam.ty = f.params.map TParam.ty := by
  rw [(reduce_ok (O := Oracle.any p Unit) hP hf h).1]
  exact ssaParams_ty

/-- **C56** (results). What the program returns is returned by the reduced function. -/
theorem C56_results (hP : P.Wt) (hf : f.Wt) (hu : P.UnpackOnly O) (h : reduce P k f = .ok g) {args : List (AVal (ZMod p))} {out : AVal (ZMod p)}
    (hr : ReturnsS O P f args out) : ReturnsT O g args out := by
  obtain ⟨ht, σ, hx, ho⟩ := hr
  obtain ⟨τ, h1, h2⟩ := ((reduce_ok (O := O) hP hf h).2.2.2 args ht).fwd hu σ hx
  exact ⟨by rw [reduce_types hP hf h]; exact ht, τ, h1, h2.trans ho⟩

/-- **C56** (nothing new is returned). What the reduced function returns is returned by the program, unless the program can fail on these arguments. -/
theorem C56_no_new_results (hP : P.Wt) (hf : f.Wt) (hu : P.UnpackSome O) (h : reduce P k f = .ok g) {args : List (AVal (ZMod p))} {out : AVal (ZMod p)}
    (hr : ReturnsT O g args out) : ReturnsS O P f args out ∨ ∃ e, FaultsS O P f args e := by
  obtain ⟨ht, τ, hx, ho⟩ := hr
  rw [reduce_types hP hf h] at ht
  rcases ((reduce_ok (O := O) hP hf h).2.2.2 args ht).bwd hu τ hx with ⟨σ, h1, h2⟩ | ⟨e, h1⟩
  · exact .inl ⟨ht, σ, h1, h2.symm.trans ho⟩
  · exact .inr ⟨e, ht, h1⟩

/-- **C56** (no new failures). Where the reduced function fails, the program can fail. -/
theorem C56_no_new_failures (hP : P.Wt) (hf : f.Wt) (hu : P.UnpackSome O) (h : reduce P k f = .ok g) {args : List (AVal (ZMod p))} {e : Fault}
    (hr : FaultsT O g args e) : ∃ e', FaultsS O P f args e' := by
  obtain ⟨ht, hx⟩ := hr
  rw [reduce_types hP hf h] at ht
  obtain ⟨e', h1⟩ := ((reduce_ok (O := O) hP hf h).2.2.2 args ht).err hu e hx
  exact ⟨e', ht, h1⟩

/-- **C56** (assertions). Where an assertion of the program fails, in the main function, in a loop or in a function which is called, an assertion of the reduced function
fails. -/
theorem C56_assertions (hP : P.Wt) (hf : f.Wt) (hu : P.UnpackOnly O) (h : reduce P k f = .ok g) {args : List (AVal (ZMod p))}
    (hr : FaultsS O P f args .assertionFailed) : AssertFailsT O g args := by
  obtain ⟨ht, hx⟩ := hr
  obtain ⟨pre, e, err, post, τ, h1, h2, h3⟩ := ((reduce_ok (O := O) hP hf h).2.2.2 args ht).asr hu hx
  exact ⟨by rw [reduce_types hP hf h]; exact ht, pre, e, err, post, τ, h1, h2, h3⟩

/-- **C56** (same function). All of them. -/
theorem C56_same_function (hP : P.Wt) (hf : f.Wt) (hu : P.UnpackOnly O) (hu' : P.UnpackSome O) (h : reduce P k f = .ok g) : ReplacesS O P f g where
  results := fun _ _ => C56_results hP hf hu h
  noNewResults := fun _ _ => C56_no_new_results hP hf hu' h
  noNewFailures := fun _ _ => C56_no_new_failures hP hf hu' h
  assertions := fun _ => C56_assertions hP hf hu h

/-- Names which no program can have: the versions of the result of a call in the frame of the main function, which is not called. -/
def freshName (n : ℕ) : TId := nid 0 0 n

theorem freshName_inj : Function.Injective freshName := fun a b h => by
  have := congrArg (fun x => (Nat.unpair (Nat.unpair x).2).2) h
  simpa [freshName, nid] using this

/-- **C56** (shape). The reduced function is well-typed and has the parameters (up to their names) and the return type of the main function; the only calls that are left
are those of embedded functions of the program, each of them is the first assignment to its variable; and no variable is called `freshName`. -/
theorem C56_shape (hP : P.Wt) (hf : f.Wt) (h : reduce P k f = .ok g) :
    g.Wt ∧ g.params.map TParam.ty = f.params.map TParam.ty ∧ g.params.map TParam.priv = f.params.map TParam.priv ∧ g.ret = f.ret ∧ (∀ s ∈ g.body, s.ArgsTyped) ∧ ConstantCalls g.body ∧
    FreshCalls (g.params.map TParam.id) g.body ∧ NoCid freshName g.vars ∧
    (∀ a e gens args, TStmt.embed a e gens args ∈ g.body → ∃ key ns ts t, P key ns ts t = some (.flat e gens)) := by
  obtain ⟨h1, h2, ⟨st', em⟩, -⟩ := reduce_ok (O := Oracle.any p Unit) hP hf h
  have hids : ∀ x ∈ g.params.map TParam.id, frameOf x = 0 ∧ nameOf x ≠ 0 := by
    intro x hx
    rw [h1] at hx
    obtain ⟨q, hq, rfl⟩ := List.mem_map.mp hx
    exact ssaParams_ids q hq
  refine ⟨⟨fun q hq => ?_, by rw [h2]; exact hf.ret, fun s hs => by rw [h2]; exact (em.wt s hs).1⟩, reduce_types hP hf h, by rw [h1]; exact ssaParams_priv, h2, fun s hs => (em.wt s hs).2, fun a e gens args hs => ?_, ?_, ?_,
    fun a e gens args hs => (em.call _ hs a e gens args rfl).2⟩
  · have : q.ty ∈ f.params.map TParam.ty := by rw [← reduce_types hP hf h]; exact List.mem_map_of_mem hq
    obtain ⟨q', hq', he⟩ := List.mem_map.mp this
    rw [← he]
    exact hf.params q' hq'
  · exact (em.call _ hs a e gens args rfl).1
  · exact em.fresh _ fun x hx hn => absurd hn (hids x hx).2
  · intro x hx n hn
    have h0 : frameOf x = 0 ∧ nameOf x = 0 := by rw [hn]; exact ⟨frameOf_nid _ _ _, nameOf_nid _ _ _⟩
    rcases List.mem_append.mp hx with hx | hx
    · exact (hids x hx).2 h0.2
    · obtain ⟨s, hs, hx⟩ := List.mem_flatMap.mp hx
      have := (em.vars s hs x hx).2 h0.2
      omega

/-- **C56** (what is bound at compile time). The honest prover finds the bit decompositions the reducer computes, if they have at most as many bits as the modulus. -/
theorem C56_honest (hp : p ≠ 2) {sem : SolverSem (ZMod p) Z} (hP : P.Wt) (hf : f.Wt) (hs : P.UnpackWithin (Fld.requiredBits p)) (h : reduce P k f = .ok g) :
    ReplacesS (Oracle.honest sem) P f g :=
  C56_same_function hP hf (fun key ns ts t n hn x bl hx => (unpackLoop_zero hp (hs key ns ts t n hn)).2 hx)
    (fun key ns ts t n hn x bl hx => (unpackLoop_zero hp (hs key ns ts t n hn)).1 hx) h

/-- **C56** (the number of steps is not observable). Two runs of the reducer which succeed, with whatever limits on the number of steps, give the same function. (The code has
no such limit.) -/
theorem C56_steps {k' : ℕ} {g' : TFun (ZMod p)} (h : reduce P k f = .ok g) (h' : reduce P k' f = .ok g') : g = g' := by
  have mono : ∀ {k k' : ℕ} {g : TFun (ZMod p)}, k ≤ k' → reduce P k f = .ok g → reduce P k' f = .ok g := fun hk h => by
    induction hk with
    | refl => exact h
    | step _ ih => exact reduce_below _ ih
  have h1 := mono (le_max_left k k') h
  rw [mono (le_max_right k k') h'] at h1
  cases h1
  rfl

end Zok.Typed
