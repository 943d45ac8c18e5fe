import Verif.Lemmas.TypeSound
import Verif.Lemmas.DceStmt
import Verif.Lemmas.Deterministic

/-
Well-typed functions have an outcome.
-/

set_option linter.unusedSectionVars false

namespace Zok

/-- Hints return something for all arguments, and there is always a decomposition into bits. -/
def Oracle.Total {p : ℕ} {Z : Type} (O : Oracle p Z) : Prop :=
  (∀ f ins n, ∃ outs, outs.length = n ∧ O.hint f ins outs) ∧ ∀ n v, ∃ bl : List Bool, bl.length = n ∧ O.unpack n v bl

namespace Ts
variable {p : ℕ} {Z : Type} [Fact p.Prime] {O : Oracle p Z} {Γ : TCtx} {env : ZEnv p}

theorem callOk {xs : List ZId} {embed : Embed} {g : List ℕ} {args : List (ZExpr (ZMod p))} {ts : List ZType}
    (hO : embed ≠ .unpack ∨ O.Total) (hl : xs.length = ts.length) (h : WtEmbed Γ embed g args ts) : CallOk O xs embed g args := by
  cases h with
  | cast =>
    match xs, hl with
    | [x], _ => exact .cast
  | toBits _ hw => subst hw; exact .toBits (by simpa using hl)
  | fromBits =>
    match xs, hl with
    | [x], _ => exact .fromBits
  | bitArrayLe _ _ h _ =>
    match xs, hl with
    | [x], _ => exact .bitArrayLe h
  | @unpack n e _ =>
    have : xs.length = n := by simpa using hl
    subst this
    exact .unpack fun v => (hO.resolve_left (by simp)).2 _ v

theorem evalIds_total : ∀ (xs : List ZId), (∀ x ∈ xs, ∃ v, env x = some v) → ∃ vs, evalIds env xs = some vs
  | [], _ => ⟨[], rfl⟩
  | x :: xs, h => by
    obtain ⟨v, hv⟩ := h x (by simp)
    obtain ⟨vs, hvs⟩ := evalIds_total xs fun x hx => h x (by simp [hx])
    exact ⟨v :: vs, by simp only [evalIds, hv, hvs]⟩

theorem progAsm {s : ZAsm (ZMod p) Z} {Γ' : TCtx} {σ : ZState p} (hO : O.Total) (henv : TEnv Γ σ.env) (h : WtAsm Γ s Γ') :
    ∃ r, ExecAsm O σ s r := by
  cases h with
  | @assignment xs f args h =>
    obtain ⟨vs, hvs⟩ := evalIds_total (env := σ.env) args fun x hx => by
      rcases h x hx with h | h <;> (obtain ⟨v, hv, _⟩ := henv x _ h; exact ⟨v, hv⟩)
    obtain ⟨outs, h1, h2⟩ := hO.1 f (vs.map ZVal.enc) xs.length
    exact ⟨_, .assignment hvs h2 h1⟩
  | @constraint l r _ _ _ =>
    cases h1 : evalF σ.env l with
    | error f => exact ⟨_, .faultL h1⟩
    | ok v =>
      cases h2 : evalF σ.env r with
      | error f => exact ⟨_, .faultR h1 h2⟩
      | ok w =>
        by_cases h3 : v = w
        · subst h3; exact ⟨_, .ok h1 h2⟩
        · exact ⟨_, .failed h1 h2 h3⟩

theorem progAsms (hO : O.Total) : ∀ (ss : List (ZAsm (ZMod p) Z)) {Γ Γ' : TCtx} {σ : ZState p}, TEnv Γ σ.env → WtAsms Γ ss Γ' →
    ∃ r, ExecAsms O σ ss r
  | [], _, _, _, _, _ => ⟨_, .nil⟩
  | s :: ss, _, _, σ, henv, h => by
    cases h with
    | cons h1 h2 =>
      obtain ⟨r, hr⟩ := progAsm hO henv h1
      cases r with
      | error e => exact ⟨_, .fault hr⟩
      | ok σ' =>
        obtain ⟨r, hr'⟩ := progAsms hO ss (soundAsm henv h1 hr) h2
        exact ⟨r, .cons hr hr'⟩

mutual
theorem progStmt : ∀ (s : ZStmt (ZMod p) Z) {Γ Γ' : TCtx} {σ : ZState p}, s.OracleFree ∨ O.Total → TEnv Γ σ.env → WtStmt Γ s Γ' →
    ∃ r, Exec O σ s r
  | .ret es, _, _, σ, _, _, _ => by
    cases h : evalZs σ.env es with
    | ok vs => exact ⟨_, .ret h⟩
    | error f => exact ⟨_, .retFault h⟩
  | .definition x e, _, _, σ, _, _, _ => by
    cases h : evalZ σ.env e with
    | ok vs => exact ⟨_, .definition h⟩
    | error f => exact ⟨_, .definitionFault h⟩
  | .ifElse c t e, _, _, σ, hO, henv, h => by
    have ih1 := fun {Γ Γ' : TCtx} {σ : ZState p} => progStmts t (Γ := Γ) (Γ' := Γ') (σ := σ) (hO.imp (fun h => h.1) id)
    have ih2 := fun {Γ Γ' : TCtx} {σ : ZState p} => progStmts e (Γ := Γ) (Γ' := Γ') (σ := σ) (hO.imp (fun h => h.2) id)
    cases h with
    | ifElse h1 h2 h3 =>
      cases hc : evalB σ.env c with
      | error f => exact ⟨_, .ifFault hc⟩
      | ok b =>
        obtain ⟨r, hr⟩ := ih1 henv h2
        cases r with
        | error f => exact ⟨_, .thenFault hc hr⟩
        | ok σ' =>
          obtain ⟨r, hr'⟩ := ih2 (soundStmts t henv h2 hr) h3
          exact ⟨r, .ifElse hc hr hr'⟩
  | .assertion e err, _, _, σ, _, _, _ => by
    cases h : evalB σ.env e with
    | ok b => cases b; exacts [⟨_, .assertFailed h⟩, ⟨_, .assertOk h⟩]
    | error f => exact ⟨_, .assertFault (.self e) h⟩
  | .multiDef xs embed g args, _, _, σ, hO, henv, h => by
    cases h with
    | multiDef h1 h2 h3 =>
      cases he : evalZs σ.env args with
      | error f => exact ⟨_, .argsFault he⟩
      | ok vs =>
        rcases Dce.embed_total (callOk hO h2 h3) he with ⟨rs, h4, h5⟩ | h4
        · exact ⟨_, .multiDef he h4 h5⟩
        · exact ⟨_, .embedFault he h4⟩
  | .log es, _, _, σ, _, _, _ => by
    cases h : evalZs σ.env es.flatten with
    | ok vs => exact ⟨_, .log h⟩
    | error f => exact ⟨_, .logFault h⟩
  | .assembly ss, _, _, σ, hO, henv, h => by
    cases h with
    | assembly h =>
      obtain ⟨r, hr⟩ := progAsms (hO.resolve_left id) ss henv h
      exact ⟨r, .assembly hr⟩
theorem progStmts : ∀ (ss : List (ZStmt (ZMod p) Z)) {Γ Γ' : TCtx} {σ : ZState p}, ZStmt.OracleFreeL ss ∨ O.Total → TEnv Γ σ.env →
    WtStmts Γ ss Γ' → ∃ r, ExecL O σ ss r
  | [], _, _, _, _, _, _ => ⟨_, .nil⟩
  | s :: ss, _, _, _, hO, henv, h => by
    have ih1 := fun {Γ Γ' : TCtx} {σ : ZState p} => progStmt s (Γ := Γ) (Γ' := Γ') (σ := σ) (hO.imp (fun h => h.1) id)
    have ih2 := fun {Γ Γ' : TCtx} {σ : ZState p} => progStmts ss (Γ := Γ) (Γ' := Γ') (σ := σ) (hO.imp (fun h => h.2) id)
    cases h with
    | cons h1 h2 =>
      obtain ⟨r, hr⟩ := ih1 henv h1
      cases r with
      | error f => exact ⟨_, .fault hr⟩
      | ok σ' =>
        obtain ⟨r, hr'⟩ := ih2 (soundStmt s henv h1 hr) h2
        exact ⟨r, .cons hr hr'⟩
end

theorem decode_ty : ∀ (qs : List ZParam) (ins : List (ZMod p)) (vs : List (ZVal p)), decodeArgs qs ins = some vs →
    vs.length = (qs.map ZParam.id).length ∧ List.Forall₂ ZVal.HasTy vs (qs.map ZParam.ty)
  | [], [], vs, h => by simp only [decodeArgs, Option.some.injEq] at h; subst h; exact ⟨rfl, .nil⟩
  | q :: qs, x :: xs, vs, h => by
    simp only [decodeArgs] at h
    split at h
    · rename_i v vs' h1 h2
      cases h
      obtain ⟨h3, h4⟩ := decode_ty qs xs vs' h2
      refine ⟨by simpa using h3, .cons ?_ h4⟩
      cases ht : q.ty <;> rw [ht] at h1 <;> simp only [decodeArg] at h1
      · cases h1; trivial
      · split at h1
        · cases h1; trivial
        · split at h1
          · cases h1; trivial
          · cases h1
      · split at h1
        · cases h1; exact ⟨rfl, by assumption⟩
        · cases h1
    · cases h
  | [], _ :: _, _, h | _ :: _, [], _, h => by simp [decodeArgs] at h

theorem init_tenv {f : ZFun (ZMod p) Z} {ins : List (ZMod p)} {vs : List (ZVal p)} (h : decodeArgs f.params ins = some vs) :
    TEnv (TCtx.setAll (fun _ => none) (f.params.map ZParam.id) (f.params.map ZParam.ty)) (initState f vs).env := by
  obtain ⟨h1, h2⟩ := decode_ty _ _ _ h
  exact TEnv.setAll (fun x t h => by cases h) h1 h2

theorem ret_outs {ss : List (ZStmt (ZMod p) Z)} {es : List (ZExpr (ZMod p))} {σ σ' : ZState p} (h : ExecL O σ (ss ++ [.ret es]) (.ok σ')) :
    ∃ vs, σ'.outs = some vs ∧ vs.length = es.length := by
  induction ss generalizing σ with
  | nil =>
    cases h with
    | cons h1 h2 =>
      cases h2
      cases h1 with
      | ret h1 =>
        refine ⟨_, rfl, ?_⟩
        revert h1
        generalize σ.env = env
        rename_i vs
        intro h1
        induction es generalizing vs with
        | nil => simp only [evalZs] at h1; cases h1; rfl
        | cons e es ih =>
          simp only [evalZs] at h1
          obtain ⟨v, _, h1⟩ := exc_bind_ok h1
          obtain ⟨vs', h2, h1⟩ := exc_bind_ok h1
          cases h1
          simp [ih h2]
  | cons s ss ih =>
    cases h with
    | cons _ h2 => exact ih h2

end Ts
end Zok
