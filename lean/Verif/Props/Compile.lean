import Verif.Model.Compile
import Verif.Lemmas.Params
import Verif.Lemmas.FlatSoundU
import Verif.Props.Gadgets
import Verif.Props.Flat
import Verif.Spec.Optimizer

/-
C19–C21, C23, C25: soundness of the flattening of expressions, statements and functions.

The environment `env` gives the source values of the variables, `EnvOk Γ env st.layout ρ` says that the circuit variables
represent them. The meaning of source expressions is `evalF`, `evalB`, `evalU` (`Spec/ZirEval.lean`).
-/

set_option linter.unusedSectionVars false

namespace Zok
variable {p : ℕ} {Z : Type} [Fact p.Prime]
variable {ρ : Assignment (ZMod p)} {st st' : FlState p Z} {Γ : Ctx} {env : ZEnv p}

/-! ### C19 -/

/-- **C19** (soundness). Whatever the prover does, the flattened boolean expression has the value of the source
expression. In particular if the source expression fails, because of an index out of bounds, a division by zero of
integers or a comparison outside of the range where it is defined, then the constraints cannot be satisfied. The
exception is division of field elements by zero, see `C20_division_by_zero_unchecked`. -/
theorem C19_bool_expression_partial (hp : 2 < p) {e : BExpr (ZMod p)} (he : OkB Γ e) (henv : EnvOk Γ env st.layout ρ)
    {a : FlatExpr (ZMod p)} (hm : Flt.flattenB e st = some (a, st'))
    (hc : CacheOk ρ st) (hs : SatF ρ st'.out) (hcl : st'.clash = false) :
    evalB env e = .error .divZero ∨ ∃ b, evalB env e = .ok b ∧ a.val ρ = if b then 1 else 0 := by
  rcases (sndB_of_ok hp henv he).run rfl hm hc hs hcl with h | ⟨b, h1, h2⟩
  · exact Or.inl h
  · exact Or.inr ⟨b, h1, by rw [h2]; unfold boolF; rfl⟩

/-! ### C20 -/

/-- **C20** (soundness). Whatever the prover does, the flattened field expression has the value of the source
expression, provided that no divisor is zero. -/
theorem C20_field_expression_partial (hp : 2 < p) {e : FExpr (ZMod p)} (he : OkF Γ e) (henv : EnvOk Γ env st.layout ρ)
    {a : FlatExpr (ZMod p)} (hm : Flt.flattenF e st = some (a, st'))
    (hc : CacheOk ρ st) (hs : SatF ρ st'.out) (hcl : st'.clash = false) :
    evalF env e = .error .divZero ∨ evalF env e = .ok (a.val ρ) := by
  rcases (sndF_of_ok hp henv he).run rfl hm hc hs hcl with h | ⟨h1, _⟩
  · exact Or.inl h
  · exact Or.inr h1

/-! ### C21 -/

/-- **C21** (soundness). Whatever the prover does, the flattened integer expression represents the source value `n`: its
field element, if it has one, is congruent to `n` modulo `2^w` and at most the annotated maximum, its bits, if it has
them, are the binary digits of `n`; and if the expression is marked for reduction it has both, and the field element
is exactly `n`. -/
theorem C21_uint_expression_partial (hp : 2 < p) {e : UExpr (ZMod p)} (he : OkU Γ e) (henv : EnvOk Γ env st.layout ρ)
    {u : FlatU p} (hm : Flt.flattenU e st = some (u, st'))
    (hc : CacheOk ρ st) (hs : SatF ρ st'.out) (hcl : st'.clash = false) :
    evalU env e = .error .divZero ∨ ∃ n, evalU env e = .ok n ∧ n < 2 ^ e.width ∧
      (∀ f, u.field = some f → (f.val ρ).val % 2 ^ e.width = n ∧ (f.val ρ).val ≤ e.amax) ∧
      (∀ bs, u.bits = some bs → bs.map (FlatExpr.val ρ) = (bitsBE e.width n).map boolF) ∧
      (e.Reduced → (∃ f, u.field = some f ∧ (f.val ρ).val = n) ∧ ∃ bs, u.bits = some bs) := by
  rcases (sndU_of_ok hp henv he).run rfl hm hc hs hcl with h | ⟨n, h1, h2, h3⟩
  · exact Or.inl h
  · refine Or.inr ⟨n, h1, h2.lt, fun f hf => ⟨(h2.field f hf).1, ?_⟩, fun bs hb => ?_, fun hr => ?_⟩
    · refine (h2.field f hf).2.trans ?_
      unfold UExpr.emax UExpr.amax
      split
      · split <;> omega
      · rfl
    · obtain ⟨bl, g1, g2, g3⟩ := h2.bits bs hb
      rw [← g3, ← g2, bitsBE_natBE]; exact g1
    · exact ⟨(h3 hr).field, (h3 hr).bits⟩

/-! ### C25 -/

theorem decodeArgs_getElem {qs : List ZParam} {xs : List (ZMod p)} {vs : List (ZVal p)}
    (h : decodeArgs qs xs = some vs) : xs.length = qs.length ∧
    ∀ (i : ℕ) (q : ZParam) (x : ZMod p), qs[i]? = some q → xs[i]? = some x → ∃ v, decodeArg q.ty x = some v := by
  induction qs generalizing xs vs with
  | nil => cases xs with
    | nil => simp
    | cons x xs => cases h
  | cons q qs ih => cases xs with
    | nil => cases h
    | cons x xs =>
      rw [decodeArgs] at h
      split at h
      · rename_i v vs' h1 h2
        obtain ⟨h3, h4⟩ := ih h2
        refine ⟨by simp [h3], ?_⟩
        intro i q' x' hq hx
        cases i with
        | zero => simp at hq hx; subst hq; subst hx; exact ⟨v, h1⟩
        | succ i => simp at hq hx; exact h4 i q' x' hq hx
      · cases h

/-- **C25**. In every assignment that satisfies the circuit of a function, boolean arguments are 0 or 1 and integer
arguments of width `w` are below `2^w`. The circuit has one argument for each parameter of the function, in order, and
with the same visibility; no two arguments share a variable. No condition on the body of the function. -/
theorem C25_arguments_checked (hp : 2 < p) {f : ZFun (ZMod p) Z} (hf : ∀ q ∈ f.params, q.ty.Ok p)
    {args : List Parameter} {ss : List (FlatStmt (ZMod p) Z)} {cl : Bool} (h : fromProgram f = some (args, ss, cl))
    (hs : SatF ρ ss) :
    args.map Parameter.priv = f.params.map ZParam.priv ∧ (args.map Parameter.id).Nodup ∧
    ∀ (i : ℕ) (q : ZParam) (a : Parameter), f.params[i]? = some q → args[i]? = some a →
      (q.ty = .bool → ρ a.id = 0 ∨ ρ a.id = 1) ∧ ∀ w, q.ty = .uint w → (ρ a.id).val < 2 ^ w := by
  unfold fromProgram at h
  cases hm : Flt.flattenFun f (FlState.init p Z) with
  | none => rw [hm] at h; cases h
  | some t =>
    obtain ⟨args'', st'⟩ := t
    rw [hm] at h
    simp only [Option.map_some, Option.some.injEq, Prod.mk.injEq] at h
    obtain ⟨rfl, rfl, hc⟩ := h
    unfold Flt.flattenFun at hm
    obtain ⟨args', st1, h1, h2⟩ := FlatM.bind_some hm
    obtain ⟨_, st2, h3, h4⟩ := FlatM.bind_some h2
    have h5 : some (args', st2) = some (args'', st') := h4
    cases h5
    obtain ⟨⟨o, ho⟩, hcl, _⟩ := MonoS.flattenStmts _ _ _ _ h3
    have hk : NewNotCached (FlState.init p Z) := fun k _ => rfl
    obtain ⟨_, n2, _, n3, _⟩ := useParameters_noClash f.params h1 hk
    have hinit : StOk ρ (fun _ => none) (⟨fun _ => none, none⟩ : ZState p) (FlState.init p Z) :=
      ⟨(fun f c h => by cases h), (fun x k h => by cases h), (fun vs h => by cases h)⟩
    rcases trp_useParameters hp f.params hf _ _ _ _ _ h1 hinit (by rw [ho] at hs; exact hs.left) (by rw [n2]; rfl) with
      he | ⟨vs, h6, h7, h8⟩
    · exact he.elim
    · refine ⟨h7, n3.imp fun h => ne_of_lt h, fun i q a hq ha => ?_⟩
      obtain ⟨v, hv⟩ := (decodeArgs_getElem h6).2 i q (ρ a.id) hq (by simp [ha])
      constructor
      · intro ht
        rw [ht, decodeArg] at hv
        split at hv
        · left; assumption
        · split at hv
          · right; assumption
          · cases hv
      · intro w ht
        rw [ht, decodeArg] at hv
        split at hv
        · assumption
        · cases hv

/-! ### C23 -/

/-- **C23**. Every assignment that satisfies the flattened constraints is an execution of the source function: the
arguments are well-typed, the assertions hold, and the outputs are the values returned; unless the execution divides
field elements by zero or uses a field element other than 0 and 1 as a boolean. -/
theorem C23_flattening_sound_partial (hp : 2 < p) {f : ZFun (ZMod p) Z} (hf : OkFun f) {args : List Parameter}
    {ss : List (FlatStmt (ZMod p) Z)} (h : fromProgram f = some (args, ss, false)) (hs : SatF ρ ss) :
    Returns (Oracle.any p Z) f (args.map fun a => ρ a.id) ((List.range f.returnCount).map fun i => ρ (Variable.pub i)) ∨
    ∃ e, Undetected e ∧ Faults (Oracle.any p Z) f (args.map fun a => ρ a.id) e := by
  unfold fromProgram at h
  cases hm : Flt.flattenFun f (FlState.init p Z) with
  | none => rw [hm] at h; cases h
  | some t =>
    obtain ⟨args', st'⟩ := t
    rw [hm] at h
    simp only [Option.map_some, Option.some.injEq, Prod.mk.injEq] at h
    obtain ⟨rfl, rfl, hc⟩ := h
    exact flattenFun_sound hp hf hm hc hs

/-- **C23** for the program in the intermediate representation, before the optimiser. -/
theorem C23_lowered_sound_partial (hp : 2 < p) {f : ZFun (ZMod p) Z} (hf : OkFun f) {P : Prog (ZMod p) Z}
    (h : lowerProgram f = some (P, false)) (ins outs : List (ZMod p)) (hr : Realises P ins outs) :
    Returns (Oracle.any p Z) f ins outs ∨ ∃ e, Undetected e ∧ Faults (Oracle.any p Z) f ins e := by
  unfold lowerProgram at h
  split at h
  · cases h
  · rename_i args ss cl hfp
    split at h
    · cases h
    · rename_i ts ht
      simp only [Option.some.injEq, Prod.mk.injEq] at h
      obtain ⟨rfl, rfl⟩ := h
      obtain ⟨ρ, h1, rfl, rfl, h4⟩ := hr
      have := C23_flattening_sound_partial hp hf hfp (ρ := ρ) (((C07_from_flat ss).2 ts ht ρ h1).1 h4)
      simpa [Prog.returns, Function.comp_def] using this

end Zok
