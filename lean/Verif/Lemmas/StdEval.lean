import Verif.Model.Stdlib
import Verif.Lemmas.Hoare

/-
Rules for the evaluation of expressions and of calls, used for the functions of the standard library.
-/

set_option linter.unusedSectionVars false

namespace Zok.Typed.Std
open Abi
variable {p : ℕ} {Z : Type} [Fact p.Prime] {O : Oracle p Z} {P : Program (ZMod p)} {env : TEnv p}

theorem ev_ident {x : TId} {t : CType} {v : AVal (ZMod p)} (h : env x = some v) (ht : HasType t v) : evalT env (.ident x t) = .ok v := by
  simp [evalT, h, ht]

theorem ev_uv {x : TId} {n : ℕ} (h : env x = some (.uint .b32 n)) (hn : n < 2 ^ 32) : evalT env (uv x) = .ok (.uint .b32 n) :=
  ev_ident h ⟨rfl, hn⟩

theorem ev_fv {x : TId} {a : ZMod p} (h : env x = some (.field a)) : evalT env (fv x) = .ok (.field a) :=
  ev_ident h trivial

theorem ev_bv {x : TId} {n : ℕ} {bl : List Bool} (h : env x = some (boolsV bl)) (hn : bl.length = n) : evalT env (bv x n) = .ok (boolsV bl) :=
  ev_ident h (hasType_boolsV hn)

theorem ev_ul {n : ℕ} : evalT env (ul n) = .ok (.uint .b32 n) := by simp [ul, evalT]
theorem ev_uval {w : UW} {n : ℕ} : evalT env (.uval w n) = .ok (.uint w n) := by simp [evalT]
theorem ev_fval {n : ZMod p} : evalT env (.fval n) = .ok (.field n) := by simp [evalT]
theorem ev_bval {b : Bool} : evalT env (.bval b) = .ok (.bool b) := by simp [evalT]

theorem ev_add {l r : TExpr (ZMod p)} {a b : ZMod p} (hl : evalT env l = .ok (.field a)) (hr : evalT env r = .ok (.field b)) : evalT env (.fbin .add l r) = .ok (.field (a + b)) := by
  simp [evalT, hl, hr, Except.bind, bind, asField, FOp.eval]
theorem ev_sub {l r : TExpr (ZMod p)} {a b : ZMod p} (hl : evalT env l = .ok (.field a)) (hr : evalT env r = .ok (.field b)) : evalT env (.fbin .sub l r) = .ok (.field (a - b)) := by
  simp [evalT, hl, hr, Except.bind, bind, asField, FOp.eval]
theorem ev_mul {l r : TExpr (ZMod p)} {a b : ZMod p} (hl : evalT env l = .ok (.field a)) (hr : evalT env r = .ok (.field b)) : evalT env (.fbin .mult l r) = .ok (.field (a * b)) := by
  simp [evalT, hl, hr, Except.bind, bind, asField, FOp.eval]
theorem ev_div {l r : TExpr (ZMod p)} {a b : ZMod p} (hl : evalT env l = .ok (.field a)) (hr : evalT env r = .ok (.field b)) (hb : b ≠ 0) :
    evalT env (.fbin .div l r) = .ok (.field (a / b)) := by
  simp [evalT, hl, hr, Except.bind, bind, asField, FOp.eval, hb]
theorem ev_divZero {l r : TExpr (ZMod p)} {a : ZMod p} (hl : evalT env l = .ok (.field a)) (hr : evalT env r = .ok (.field 0)) : evalT env (.fbin .div l r) = .error .divZero := by
  simp [evalT, hl, hr, Except.bind, bind, asField, FOp.eval]
theorem ev_neg {l : TExpr (ZMod p)} {a : ZMod p} (hl : evalT env l = .ok (.field a)) : evalT env (.fneg l) = .ok (.field (-a)) := by
  simp [evalT, hl, Except.bind, bind, asField]
theorem ev_pow {l r : TExpr (ZMod p)} {a : ZMod p} {k : ℕ} (hl : evalT env l = .ok (.field a)) (hr : evalT env r = .ok (.uint .b32 k)) : evalT env (.fubin .pow l r) = .ok (.field (a ^ k)) := by
  simp [evalT, hl, hr, Except.bind, bind, asField, asUint]

/-- Operations on integers. -/
theorem ev_ubin {w : UW} {op : UOp} {l r : TExpr (ZMod p)} {a b c : ℕ} (hl : evalT env l = .ok (.uint w a)) (hr : evalT env r = .ok (.uint (op.rightWidth w) b)) (hc : op.eval w.bits a b = .ok c) :
    evalT env (.ubin w op l r) = .ok (.uint w c) := by
  simp [evalT, hl, hr, Except.bind, bind, asUint, hc]

theorem ev_uadd {w : UW} {l r : TExpr (ZMod p)} {a b : ℕ} (hl : evalT env l = .ok (.uint w a)) (hr : evalT env r = .ok (.uint w b)) (h : a + b < 2 ^ w.bits) :
    evalT env (.ubin w .add l r) = .ok (.uint w (a + b)) :=
  ev_ubin hl hr (by rw [UOp.eval, Nat.mod_eq_of_lt h])
theorem ev_usub {w : UW} {l r : TExpr (ZMod p)} {a b : ℕ} (hl : evalT env l = .ok (.uint w a)) (hr : evalT env r = .ok (.uint w b)) (h : b ≤ a) (ha : a < 2 ^ w.bits) :
    evalT env (.ubin w .sub l r) = .ok (.uint w (a - b)) :=
  ev_ubin hl hr (by
    rw [UOp.eval]
    congr 1
    have : a + (2 ^ w.bits - b) = (a - b) + 2 ^ w.bits := by omega
    rw [this, Nat.add_mod_right, Nat.mod_eq_of_lt (by omega)])
theorem ev_umul {w : UW} {l r : TExpr (ZMod p)} {a b : ℕ} (hl : evalT env l = .ok (.uint w a)) (hr : evalT env r = .ok (.uint w b)) (h : a * b < 2 ^ w.bits) :
    evalT env (.ubin w .mult l r) = .ok (.uint w (a * b)) :=
  ev_ubin hl hr (by rw [UOp.eval, Nat.mod_eq_of_lt h])

theorem ev_select {t : CType} {a i : TExpr (ZMod p)} {vs : List (AVal (ZMod p))} {k : ℕ} {v : AVal (ZMod p)} (ha : evalT env a = .ok (.array vs)) (hi : evalT env i = .ok (.uint .b32 k))
    (hv : vs[k]? = some v) : evalT env (.select t a i) = .ok v := by
  simp [evalT, ha, hi, Except.bind, bind, asArray, asUint, selectVal, hv]

theorem ev_selectBits {i : TExpr (ZMod p)} {a : TExpr (ZMod p)} {bl : List Bool} {k : ℕ} (ha : evalT env a = .ok (boolsV bl)) (hi : evalT env i = .ok (.uint .b32 k)) (hk : k < bl.length) :
    evalT env (.select .bool a i) = .ok (.bool bl[k]) :=
  ev_select ha hi (by simp [hk])

theorem ev_slice {t : CType} {n : ℕ} {a lo hi : TExpr (ZMod p)} {vs : List (AVal (ZMod p))} {l h : ℕ} (ha : evalT env a = .ok (.array vs)) (hlo : evalT env lo = .ok (.uint .b32 l))
    (hhi : evalT env hi = .ok (.uint .b32 h)) (hl : l ≤ h) (hh : h ≤ vs.length) : evalT env (.slice t n a lo hi) = .ok (.array ((vs.take h).drop l)) := by
  simp [evalT, ha, hlo, hhi, Except.bind, bind, asArray, asUint, hl, hh]

theorem ev_cond {t : CType} {c a b : TExpr (ZMod p)} {x : Bool} {v w : AVal (ZMod p)} (hc : evalT env c = .ok (.bool x)) (ha : evalT env a = .ok v) (hb : evalT env b = .ok w) :
    evalT env (.cond t c a b) = .ok (if x then v else w) := by
  simp [evalT, hc, ha, hb, Except.bind, bind, asBool]

theorem ev_condF {t : CType} {c a b : TExpr (ZMod p)} {x : Bool} {v w : ZMod p} (hc : evalT env c = .ok (.bool x)) (ha : evalT env a = .ok (.field v)) (hb : evalT env b = .ok (.field w)) :
    evalT env (.cond t c a b) = .ok (.field (if x then v else w)) := by
  rw [ev_cond hc ha hb]
  cases x <;> rfl

theorem ev_eq {l r : TExpr (ZMod p)} {v w : AVal (ZMod p)} (hl : evalT env l = .ok v) (hr : evalT env r = .ok w) : evalT env (.eq l r) = .ok (.bool (open Classical in decide (v = w))) := by
  simp [evalT, hl, hr, bind, Except.bind]

theorem ev_and {l r : TExpr (ZMod p)} {v w : Bool} (hl : evalT env l = .ok (.bool v)) (hr : evalT env r = .ok (.bool w)) : evalT env (.bbin .and l r) = .ok (.bool (v && w)) := by
  simp [evalT, hl, hr, bind, Except.bind, asBool]

theorem ev_not {l : TExpr (ZMod p)} {v : Bool} (hl : evalT env l = .ok (.bool v)) : evalT env (.bnot l) = .ok (.bool !v) := by
  simp [evalT, hl, bind, Except.bind, asBool]

theorem ev_repeat {t : CType} {n k : ℕ} {e c : TExpr (ZMod p)} {v : AVal (ZMod p)} (he : evalT env e = .ok v) (hc : evalT env c = .ok (.uint .b32 k)) :
    evalT env (.repeat_ t n e c) = .ok (.array (List.replicate k v)) := by
  simp [evalT, he, hc, bind, Except.bind, asUint]

theorem ev_array {t : CType} {n : ℕ} {es : List (TSpread (ZMod p))} {vs : List (AVal (ZMod p))} (h : evalS env es = .ok vs) : evalT env (.array t n es) = .ok (.array vs) := by
  simp [evalT, h, bind, Except.bind]

theorem evS_nil : evalS env [] = .ok [] := by simp [evalS]
theorem evS_expr {e : TExpr (ZMod p)} {es : List (TSpread (ZMod p))} {v : AVal (ZMod p)} {vs : List (AVal (ZMod p))} (he : evalT env e = .ok v) (hs : evalS env es = .ok vs) :
    evalS env (.expr e :: es) = .ok (v :: vs) := by
  simp [evalS, he, hs, bind, Except.bind]
theorem evS_spread {e : TExpr (ZMod p)} {es : List (TSpread (ZMod p))} {v vs : List (AVal (ZMod p))} (he : evalT env e = .ok (.array v)) (hs : evalS env es = .ok vs) :
    evalS env (.spread e :: es) = .ok (v ++ vs) := by
  simp [evalS, he, hs, bind, Except.bind, asArray]

theorem evL_nil : evalL env [] = .ok ([] : List (AVal (ZMod p))) := by simp [evalL]
theorem evL_cons {e : TExpr (ZMod p)} {es : List (TExpr (ZMod p))} {v : AVal (ZMod p)} {vs : List (AVal (ZMod p))} (he : evalT env e = .ok v) (hs : evalL env es = .ok vs) :
    evalL env (e :: es) = .ok (v :: vs) := by
  simp [evalL, he, hs, bind, Except.bind]

/-! ### Calls -/

/-- The call of a function of the program whose result is known, without explicit generic arguments. -/
theorem wp_callTo {σ : TState p} {x : TId} {t : CType} {key : ℕ} {args : List (TExpr (ZMod p))} {ss : List (SStmt (ZMod p))} {R : Except Fault (TState p) → Prop} {i : Inst (ZMod p)}
    {vs : List (AVal (ZMod p))} {v : AVal (ZMod p)} (ha : evalL σ.env args = .ok vs) (hP : P key [] (args.map TExpr.ty) t = some (.here i)) (hc : CallsTo O P i vs (.ok v))
    (h : WP O P (σ.set x v) ss R) : WP O P σ (call x t key args :: ss) R := by
  refine wp_call (cwp_here [] evL_nil ha hP (FWP.mono (callsTo_iff.1 hc) ?_))
  rintro r rfl
  exact ⟨v, rfl, h⟩

/-- A call which fails. -/
theorem wp_callFault {σ : TState p} {x : TId} {t : CType} {key : ℕ} {args : List (TExpr (ZMod p))} {ss : List (SStmt (ZMod p))} {R : Except Fault (TState p) → Prop} {i : Inst (ZMod p)}
    {vs : List (AVal (ZMod p))} {f : Fault} (ha : evalL σ.env args = .ok vs) (hP : P key [] (args.map TExpr.ty) t = some (.here i)) (hc : CallsTo O P i vs (.error f))
    (h : R (.error f)) : WP O P σ (call x t key args :: ss) R := by
  refine wp_call (cwp_here [] evL_nil ha hP (FWP.mono (callsTo_iff.1 hc) ?_))
  rintro r rfl
  exact h

/-- The call of an embedded function with one result. -/
theorem wp_flatTo {σ : TState p} {a : TAssignee (ZMod p)} {t : CType} {key : ℕ} {args : List (TExpr (ZMod p))} {ss : List (SStmt (ZMod p))} {R : Except Fault (TState p) → Prop} {f : Embed} {g : List ℕ}
    {vs : List (AVal (ZMod p))} {v u : AVal (ZMod p)} (ha : evalL σ.env args = .ok vs) (hP : P key [] (args.map TExpr.ty) t = some (.flat f g)) (ht : HasType t v)
    (h0 : ∀ r, EmbedRes O f g (primsL vs) r ↔ r = .ok (prims v)) (hu : setA σ.env a v = .ok u) (h : WP O P (σ.set a.root u) ss R) : WP O P σ (.call a t key [] args :: ss) R :=
  wp_call (cwp_flat_eq [] evL_nil ha hP ht h0 ⟨u, hu, h⟩)

/-! ### Exact results of statements, for functions whose result is chosen by the prover -/

theorem exec_nil {σ : TState p} {r : Except Fault (TState p)} : ExecSs O P σ [] r ↔ r = .ok σ := by
  constructor
  · intro h; cases h; rfl
  · rintro rfl; exact .nil

theorem exec_set {σ : TState p} {x : TId} {t : CType} {e : TExpr (ZMod p)} {ss : List (SStmt (ZMod p))} {v : AVal (ZMod p)} {r : Except Fault (TState p)} (he : evalT σ.env e = .ok v) :
    ExecSs O P σ (set x t e :: ss) r ↔ ExecSs O P (σ.set x v) ss r := by
  constructor
  · intro h
    cases h with
    | fault h => cases h with | simple h => cases h with
      | rhsFault h => rw [he] at h; cases h
      | lhsFault h1 h2 => cases h2
    | cons h h' => cases h with | simple h => cases h with
      | definition h1 h2 =>
        rw [he] at h1; cases h1
        cases h2
        exact h'
  · intro h
    exact .cons (.simple (.definition he rfl)) h

theorem exec_call {σ : TState p} {x : TId} {t : CType} {key : ℕ} {gens args : List (TExpr (ZMod p))} {ss : List (SStmt (ZMod p))} {r : Except Fault (TState p)} :
    ExecSs O P σ (.call (.ident x t) t key gens args :: ss) r ↔
      (∃ v, ExecCall O P σ t key gens args (.ok v) ∧ ExecSs O P (σ.set x v) ss r) ∨ ∃ f, ExecCall O P σ t key gens args (.error f) ∧ r = .error f := by
  constructor
  · intro h
    cases h with
    | fault h => cases h with
      | callFault h => exact .inr ⟨_, h, rfl⟩
      | lhsFault h1 h2 => cases h2
    | cons h h' => cases h with
      | call h1 h2 => cases h2; exact .inl ⟨_, h1, h'⟩
  · rintro (⟨v, h1, h2⟩ | ⟨f, h1, rfl⟩)
    · exact .cons (.call h1 rfl) h2
    · exact .fault (.callFault h1)

theorem exec_assert {σ : TState p} {e : TExpr (ZMod p)} {ss : List (SStmt (ZMod p))} {b : Bool} {r : Except Fault (TState p)} (he : evalT σ.env e = .ok (.bool b)) :
    ExecSs O P σ (assert e :: ss) r ↔ if b then ExecSs O P σ ss r else r = .error .assertionFailed := by
  constructor
  · intro h
    cases h with
    | fault h => cases h with | simple h => cases h with
      | assertFailed h => rw [he] at h; cases h; rfl
      | assertFault h => rw [he] at h; cases h
    | cons h h' => cases h with | simple h => cases h with
      | assertOk h => rw [he] at h; cases h; exact h'
  · intro h
    cases b with
    | true => exact .cons (.simple (.assertOk he)) h
    | false =>
      simp only [Bool.false_eq_true, if_false] at h
      subst h
      exact .fault (.simple (.assertFailed he))

theorem call_here {σ : TState p} {t : CType} {key : ℕ} {gens args : List (TExpr (ZMod p))} {i : Inst (ZMod p)} (ns : List ℕ) {vs : List (AVal (ZMod p))} {r : Except Fault (AVal (ZMod p))}
    (hg : evalL σ.env gens = .ok (ns.map (AVal.uint .b32))) (ha : evalL σ.env args = .ok vs) (hP : P key ns (args.map TExpr.ty) t = some (.here i)) :
    ExecCall O P σ t key gens args r ↔ Calls O P i vs r := by
  constructor
  · intro hr
    cases hr with
    | here h1 h2 h3 h4 =>
      rw [hg] at h1; rw [ha] at h2
      cases h2
      cases uints_inj (Except.ok.inj h1)
      rw [hP] at h3; cases h3
      exact .inl ⟨_, h4, rfl⟩
    | hereFault h1 h2 h3 h4 =>
      rw [hg] at h1; rw [ha] at h2
      cases h2
      cases uints_inj (Except.ok.inj h1)
      rw [hP] at h3; cases h3
      exact .inr ⟨_, h4, rfl⟩
    | flat h1 h2 h3 h4 h5 =>
      rw [hg] at h1; rw [ha] at h2
      cases uints_inj (Except.ok.inj h1)
      rw [hP] at h3; cases h3
    | flatFault h1 h2 h3 h4 =>
      rw [hg] at h1; rw [ha] at h2
      cases uints_inj (Except.ok.inj h1)
      rw [hP] at h3; cases h3
    | gensFault h1 => rw [hg] at h1; cases h1
    | argsFault h1 h2 => rw [ha] at h2; cases h2
  · rintro (⟨σ1, h1, rfl⟩ | ⟨f, h1, rfl⟩)
    · exact .here hg ha hP h1
    · exact .hereFault hg ha hP h1

theorem call_flat {σ : TState p} {t : CType} {key : ℕ} {gens args : List (TExpr (ZMod p))} {f : Embed} {g : List ℕ} (ns : List ℕ) {vs : List (AVal (ZMod p))} {r : Except Fault (AVal (ZMod p))}
    (hg : evalL σ.env gens = .ok (ns.map (AVal.uint .b32))) (ha : evalL σ.env args = .ok vs) (hP : P key ns (args.map TExpr.ty) t = some (.flat f g)) :
    ExecCall O P σ t key gens args r ↔ (∃ v, HasType t v ∧ EmbedRes O f g (primsL vs) (.ok (prims v)) ∧ r = .ok v) ∨ ∃ e, EmbedRes O f g (primsL vs) (.error e) ∧ r = .error e := by
  constructor
  · intro hr
    cases hr with
    | here h3 h4 h5 h6 =>
      rw [hg] at h3
      cases uints_inj (Except.ok.inj h3)
      rw [hP] at h5; cases h5
    | hereFault h3 h4 h5 h6 =>
      rw [hg] at h3
      cases uints_inj (Except.ok.inj h3)
      rw [hP] at h5; cases h5
    | flat h3 h4 h5 h6 h7 =>
      rw [hg] at h3; rw [ha] at h4
      cases h4
      cases uints_inj (Except.ok.inj h3)
      rw [hP] at h5; cases h5
      exact .inl ⟨_, h6, h7, rfl⟩
    | flatFault h3 h4 h5 h6 =>
      rw [hg] at h3; rw [ha] at h4
      cases h4
      cases uints_inj (Except.ok.inj h3)
      rw [hP] at h5; cases h5
      exact .inr ⟨_, h6, rfl⟩
    | gensFault h3 => rw [hg] at h3; cases h3
    | argsFault h3 h4 => rw [ha] at h4; cases h4
  · rintro (⟨v, h1, h2, rfl⟩ | ⟨e, h1, rfl⟩)
    · exact .flat hg ha hP h1 h2
    · exact .flatFault hg ha hP h1

/-- An embedded function with one result. -/
theorem call_flatTo {σ : TState p} {t : CType} {key : ℕ} {gens args : List (TExpr (ZMod p))} {f : Embed} {g : List ℕ} (ns : List ℕ) {vs : List (AVal (ZMod p))} {v : AVal (ZMod p)}
    {r : Except Fault (AVal (ZMod p))}
    (hg : evalL σ.env gens = .ok (ns.map (AVal.uint .b32))) (ha : evalL σ.env args = .ok vs) (hP : P key ns (args.map TExpr.ty) t = some (.flat f g)) (ht : HasType t v)
    (h0 : ∀ r, EmbedRes O f g (primsL vs) r ↔ r = .ok (prims v)) : ExecCall O P σ t key gens args r ↔ r = .ok v := by
  rw [call_flat ns hg ha hP]
  constructor
  · rintro (⟨v', h1, h2, rfl⟩ | ⟨e, h1, rfl⟩)
    · rw [h0] at h2
      rw [prims_inj t v' v h1 ht (Except.ok.inj h2)]
    · rw [h0] at h1; cases h1
  · rintro rfl
    exact .inl ⟨v, ht, (h0 _).2 rfl, rfl⟩

/-- `exact`, elaborated last. -/
macro "lk(" t:term ")" : term => `(by exact $t)

end Zok.Typed.Std
