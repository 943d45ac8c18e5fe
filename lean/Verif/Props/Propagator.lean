import Verif.Lemmas.PropagateStmt
import Verif.Spec.TestField

/-
C26: compile-time constant propagation agrees with run time evaluation. `propF`, `propB`, `propU` and `propagate` are
the folding functions of `zokrates_analysis/src/zir_propagation.rs`; `evalF`, `evalB`, `evalU` (Spec/ZirEval.lean) give
the meaning of expressions and `Returns`, `Faults` (Spec/ZirExec.lean) that of functions.
-/

namespace Zok
open Prop'
set_option linter.unusedSectionVars false
variable {p : ℕ} [Fact p.Prime] {Z : Type}

/-- The constants known to the propagator have their value in the environment. -/
def ConstsOf (c : Consts p) (env : ZEnv p) : Prop := ∀ x v, c x = some v → env x = some v

theorem ConstsOf.agree {c : Consts p} {env : ZEnv p} (h : ConstsOf c env) : Agree False c env env :=
  ⟨h, fun _ _ => .inl rfl⟩

/-- C26 for field expressions: if the expression has the value `v` then folding succeeds and the folded expression has
the value `v`. -/
theorem C26_field {c : Consts p} {env : ZEnv p} (hc : ConstsOf c env) (he : UintsFit env) (e : FExpr (ZMod p)) (v : ZMod p)
    (ht : TyF e) (h : evalF env e = .ok v) : ∃ e', propF c e = .ok e' ∧ evalF env e' = .ok v := by
  obtain ⟨e', h1, _, h2⟩ := propF_ok hc.agree he e v ht h
  exact ⟨e', h1, h2.2.false_eq⟩

/-- C26 for boolean expressions. -/
theorem C26_bool {c : Consts p} {env : ZEnv p} (hc : ConstsOf c env) (he : UintsFit env) (e : BExpr (ZMod p)) (v : Bool)
    (ht : TyB e) (h : evalB env e = .ok v) : ∃ e', propB c e = .ok e' ∧ evalB env e' = .ok v := by
  obtain ⟨e', h1, _, h2⟩ := propB_ok hc.agree he e v ht h
  exact ⟨e', h1, h2.2.false_eq⟩

/-- C26 for unsigned integer expressions; the width is preserved. -/
theorem C26_uint {c : Consts p} {env : ZEnv p} (hc : ConstsOf c env) (he : UintsFit env) (e : UExpr (ZMod p)) (v : ℕ)
    (ht : TyU e) (h : evalU env e = .ok v) :
    ∃ e', propU c e = .ok e' ∧ e'.width = e.width ∧ evalU env e' = .ok v := by
  obtain ⟨e', h1, _, hw, h2⟩ := propU_ok hc.agree he e v ht h
  exact ⟨e', h1, hw, h2.2.false_eq⟩

/-- C26, errors: if folding reports an error, the evaluation fails in every environment with these constants. -/
theorem C26_errors {c : Consts p} {env : ZEnv p} (hc : ConstsOf c env) (he : UintsFit env) (err : PropError) :
    (∀ e : FExpr (ZMod p), TyF e → propF c e = .error err → ∃ f, evalF env e = .error f) ∧
    (∀ e : BExpr (ZMod p), TyB e → propB c e = .error err → ∃ f, evalB env e = .error f) ∧
    (∀ e : UExpr (ZMod p), TyU e → propU c e = .error err → ∃ f, evalU env e = .error f) := by
  refine ⟨fun e ht h => ?_, fun e ht h => ?_, fun e ht h => ?_⟩
  · cases hv : evalF env e with
    | error f => exact ⟨f, rfl⟩
    | ok v => obtain ⟨e', h1, _⟩ := C26_field hc he e v ht hv; rw [h] at h1; cases h1
  · cases hv : evalB env e with
    | error f => exact ⟨f, rfl⟩
    | ok v => obtain ⟨e', h1, _⟩ := C26_bool hc he e v ht hv; rw [h] at h1; cases h1
  · cases hv : evalU env e with
    | error f => exact ⟨f, rfl⟩
    | ok v => obtain ⟨e', h1, _⟩ := C26_uint hc he e v ht hv; rw [h] at h1; cases h1

/-- C26 for functions without branching statements: whatever the source function can return, propagation succeeds and
the propagated function can return; in particular an error (a failing assertion, an out of bounds access, a division by
zero) is only reported for a function that cannot return on any argument. `hH` says that the folding of assembly hints
preserves their outputs. -/
theorem C26_function {ar : Z → ℕ} {H : HintFolder p Z} {O O' : Oracle p Z} (hH : HintOk ar H O O')
    (err : String → RuntimeError) (f : ZFun (ZMod p) Z) (ht : TyFun ar f) (args outs : List (ZMod p))
    (h : Returns O f args outs) : ∃ f', propagate H err f = .ok f' ∧ Returns O' f' args outs := by
  obtain ⟨vs, σ, rs, hd, hx, ho, hr⟩ := h
  obtain ⟨hs, hdom⟩ := init_sim hd
  obtain ⟨c', ss, h1, σ₁', h2, hs'⟩ := propSs_fwd (err := err) hH hs hdom ht hx
  refine ⟨{ f with body := ss }, by simp only [propagate, h1, exc_ok_bind], vs, σ₁', rs, hd, h2, ?_, hr⟩
  rw [hs'.outs, ho]

/-- Conversely, an outcome of the propagated function is an outcome of the source, except that the source may fail
instead (propagation drops failing operands, as in `0 * (1 / x)`). -/
theorem C26_function_conv {ar : Z → ℕ} {H : HintFolder p Z} {O O' : Oracle p Z} (hH : HintOk ar H O O')
    (err : String → RuntimeError) (f f' : ZFun (ZMod p) Z) (ht : TyFun ar f) (hp : propagate H err f = .ok f')
    (args : List (ZMod p)) :
    (∀ outs, Returns O' f' args outs → Returns O f args outs ∨ ∃ e, Faults O f args e) ∧
    (∀ e, Faults O' f' args e → ∃ e', Faults O f args e') := by
  obtain ⟨c', h1, hpar, hrc⟩ := propagate_inv hp
  have hi : ∀ vs, initState f' vs = initState f vs := by intro vs; simp only [initState, hpar]
  refine ⟨fun outs h => ?_, fun e h => ?_⟩
  · obtain ⟨vs, σ', rs, hd, hx, ho, hr⟩ := h
    rw [hpar] at hd; rw [hi] at hx
    obtain ⟨hs, hdom⟩ := init_sim hd
    rcases propSs_bwd hH hs hdom ht h1 hx with ⟨e, he⟩ | ⟨σ₁, σ₁', he, h2, hs'⟩
    · exact .inr ⟨e, vs, hd, he⟩
    · cases he; exact .inl ⟨vs, σ₁, rs, hd, h2, by rw [← hs'.outs]; exact ho, hr⟩
  · obtain ⟨vs, hd, hx⟩ := h
    rw [hpar] at hd; rw [hi] at hx
    obtain ⟨hs, hdom⟩ := init_sim hd
    rcases propSs_bwd hH hs hdom ht h1 hx with ⟨e', he⟩ | ⟨σ₁, σ₁', he, _⟩
    · exact ⟨e', vs, hd, he⟩
    · cases he

/-! ### The hypotheses can be met -/

/-- A hint with one argument which returns it. -/
def idOracle (p : ℕ) : Oracle p Unit where
  hint _ ins outs := ∃ v, ins = [v] ∧ outs = [v]
  unpack n x bl := bl.length = n ∧ ((natBE bl : ℕ) : ZMod p) = x

/-- Folding of that hint: a constant argument is returned at compile time. -/
def idHint : HintFolder p Unit
  | c, (), [x] => match c x with
    | some v => .ok (.values [v.enc])
    | none => .ok (.residual () [x])
  | _, (), _ => .error .panic

theorem hintOk_id : HintOk (fun _ => 1) (idHint (p := p)) (idOracle p) (idOracle p) where
  arity c f args vs h := by
    unfold idHint at h
    split at h
    · split at h <;> cases h; rfl
    · cases h
  unpack := rfl
  fwd c env env' f args ins outs ha _ hi ho := by
    obtain ⟨v, h1, rfl⟩ := ho
    obtain ⟨w, rfl, rfl⟩ : ∃ w : ZVal p, ins = [w] ∧ w.enc = v := by
      match ins, h1 with
      | [w], h1 => exact ⟨w, rfl, by simpa using h1⟩
    match args, hi with
    | [x], hi =>
      simp only [evalIds] at hi
      split at hi
      · rename_i w' vs hx hvs
        cases hi
        simp only [idHint]
        cases hc : c x with
        | some u =>
          have := ha.const x u hc
          rw [hx] at this; cases this
          exact .inl rfl
        | none =>
          rcases ha.other x hc with h | ⟨h, _⟩
          · exact .inr ⟨(), [x], [w], rfl, by simp only [evalIds, h, hx], w.enc, rfl, rfl⟩
          · exact h.elim
      · cases hi
    | x :: y :: l, hi =>
      simp only [evalIds] at hi
      split at hi
      · rename_i hvs
        split at hvs <;> cases hvs
        cases hi
      · cases hi
  values c env env' f args outs ha _ h := by
    unfold idHint at h
    split at h
    · split at h
      · rename_i x _ v hx; cases h
        exact ⟨[v], by simp only [evalIds, ha.const x v hx], v.enc, rfl, rfl⟩
      · cases h
    · cases h
  residual c env env' f args f' args' ins' outs ha _ h hi ho := by
    unfold idHint at h
    split at h
    · split at h
      · cases h
      · rename_i x _ hx
        cases h
        rcases ha.other x hx with h | ⟨h, _⟩
        · refine ⟨ins', ?_, ho⟩
          simp only [evalIds] at hi ⊢
          rw [← h]; exact hi
        · exact h.elim
    · cases h

/-- Programs without hints: nothing has to be assumed. -/
theorem hintOk_empty (ar : Empty → ℕ) (H : HintFolder p Empty) (O : Oracle p Empty) : HintOk ar H O O where
  arity _ f := f.elim
  unpack := rfl
  fwd _ _ _ f := f.elim
  values _ _ _ f := f.elim
  residual _ _ _ f := f.elim

section Examples

/-- `x: field, y: u8; z = 3 * 5 + x; assert(2u8 + 3u8 == 5u8); w = [x, z, 7][1]; return w, (y & 255) << 1`. -/
def exProp : ZFun (ZMod 97) Empty where
  params := [⟨0, .field, true⟩, ⟨1, .uint 8, true⟩]
  body := [.definition 2 (.field (.add (.mult (.value 3) (.value 5)) (.ident 0))),
    .assertion (.uintEq (.mk 8 none (.add (.mk 8 none (.value 2)) (.mk 8 none (.value 3)))) (.mk 8 none (.value 5)))
      (.sourceAssertion ""),
    .definition 3 (.uint (.mk 32 none (.value 1))),
    .definition 4 (.field (.select [.ident 0, .ident 2, .value 7] (.mk 32 none (.ident 3)))),
    .ret [.field (.ident 4), .uint (.mk 8 none (.leftShift (.mk 8 none (.and (.mk 8 none (.ident 1))
      (.mk 8 none (.value 255)))) (.mk 32 none (.ident 3))))]]
  returnCount := 2

example : TyFun (fun _ => 0) exProp := by
  simp [TyFun, exProp, TyStmts, TyStmt, TyZ, TyF, TyFs, TyB, TyU, TyUI, UExpr.width]

/-- The propagated program has no assertion, no constant definitions and no array access left. -/
example : propagate (fun _ f _ => f.elim) .sourceAssemblyConstraint exProp = .ok { exProp with
    body := [.definition 2 (.field (.add (.value 15) (.ident 0))), .definition 4 (.field (.ident 2)),
      .ret [.field (.ident 4), .uint (.mk 8 none (.leftShift (.mk 8 none (.ident 1)) (.mk 32 none (.value 1))))]] } := by
  rfl

theorem exProp_returns : Returns (Oracle.any 97 Empty) exProp [4, 66] [19, 35] := by
  refine ⟨[.field 4, .uint 8 66], _, [.field 19, .uint 8 132], rfl,
    .cons (.definition (v := .field 19) rfl) (.cons (.assertOk rfl) (.cons (.definition (v := .uint 32 1) rfl)
      (.cons (.definition (v := .field 19) rfl) (.cons (.ret (vs := [.field 19, .uint 8 132]) rfl) .nil)))), rfl, rfl⟩

/-- A failing constant assertion, a constant index out of bounds and a division by zero are reported. -/
example : propagate (p := 97) (Z := Empty) (fun _ f _ => f.elim) .sourceAssemblyConstraint
    ⟨[], [.assertion (.fieldEq (.value 1) (.value 2)) .or, .ret []], 0⟩ = .error (.assertionFailed .or) := rfl
example : propF (p := 97) (fun _ => none) (.select [.value 1] (.mk 32 none (.value 3))) = .error (.outOfBounds 3 1) := rfl
example : propF (p := 97) (fun _ => none) (.div (.value 1) (.sub (.value 3) (.value 3))) = .error .divisionByZero := rfl

/-- A remainder by the constant zero panics instead of being reported as a division by zero
(`zir_propagation.rs:763-767`). -/
theorem C26_rem_by_zero_panics : propU (p := 97) (fun _ => none) (.mk 8 none (.rem (.mk 8 none (.value 1))
    (.mk 8 none (.value 0)))) = .error .panic := rfl

/-- Propagation can remove a fault: `0 * (1 / x)` becomes `0`. -/
theorem C26_removes_faults : evalF (p := 97) (fun _ => some (.field 0)) (.mult (.value 0) (.div (.value 1) (.ident 0))) =
      .error .divZero ∧
    propF (p := 97) (fun _ => none) (.mult (.value 0) (.div (.value 1) (.ident 0))) = .ok (.value 0) := ⟨rfl, rfl⟩

end Examples
end Zok
