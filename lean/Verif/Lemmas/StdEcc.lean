import Verif.Lemmas.StdCasts
import Verif.Spec.Ecc

/-
`ecc/`.
-/

set_option linter.unusedSectionVars false

namespace Zok.Typed.Std
open Abi
variable {p : ℕ} {Z : Type} [Fact p.Prime] {O : Oracle p Z} {P : Program (ZMod p)}

theorem hasType_params {c : Params p} (h : c.infinity.length = 2) : HasType paramsTy c.val := by
  simp [paramsTy, Params.val, HasType, HasTypeM, h]

theorem ev_ctx {env : TEnv p} {x : TId} {c : Params p} (h : env x = some c.val) (hi : c.infinity.length = 2) : evalT env (ctx x) = .ok c.val := ev_ident h (hasType_params hi)

theorem ev_member {env : TEnv p} {t : CType} {s : TExpr (ZMod p)} {m : Str} {ms : List (Str × AVal (ZMod p))} {v : AVal (ZMod p)} (h : evalT env s = .ok (.struct ms)) (hm : ms.lookup m = some v) :
    evalT env (.member t s m) = .ok v := by
  simp [evalT, h, hm, bind, Except.bind]

theorem ev_A {env : TEnv p} {x : TId} {c : Params p} (h : env x = some c.val) (hi : c.infinity.length = 2) : evalT env (ctxF x "JUBJUB_A") = .ok (.field c.A) := ev_member (ev_ctx h hi) rfl
theorem ev_C {env : TEnv p} {x : TId} {c : Params p} (h : env x = some c.val) (hi : c.infinity.length = 2) : evalT env (ctxF x "JUBJUB_C") = .ok (.field c.C) := ev_member (ev_ctx h hi) rfl
theorem ev_D {env : TEnv p} {x : TId} {c : Params p} (h : env x = some c.val) (hi : c.infinity.length = 2) : evalT env (ctxF x "JUBJUB_D") = .ok (.field c.D) := ev_member (ev_ctx h hi) rfl
theorem ev_Gu {env : TEnv p} {x : TId} {c : Params p} (h : env x = some c.val) (hi : c.infinity.length = 2) : evalT env (ctxF x "Gu") = .ok (.field c.Gu) := ev_member (ev_ctx h hi) rfl
theorem ev_Gv {env : TEnv p} {x : TId} {c : Params p} (h : env x = some c.val) (hi : c.infinity.length = 2) : evalT env (ctxF x "Gv") = .ok (.field c.Gv) := ev_member (ev_ctx h hi) rfl

theorem ev_pt {env : TEnv p} {x : TId} {u v : ZMod p} (h : env x = some (fieldsV [u, v])) : evalT env (ptv x) = .ok (fieldsV [u, v]) := ev_ident h (hasType_fieldsV rfl)
theorem ev_pt0 {env : TEnv p} {x : TId} {u v : ZMod p} (h : env x = some (fieldsV [u, v])) : evalT env (fsel x 2 0) = .ok (.field u) := ev_select (ev_pt h) ev_ul rfl
theorem ev_pt1 {env : TEnv p} {x : TId} {u v : ZMod p} (h : env x = some (fieldsV [u, v])) : evalT env (fsel x 2 1) = .ok (.field v) := ev_select (ev_pt h) ev_ul rfl

/-- The result of the addition, or its failure. -/
theorem edwardsAdd_spec {c : Params p} (hi : c.infinity.length = 2) {u1 v1 u2 v2 : ZMod p} : CallsTo O P edwardsAdd [fieldsV [u1, v1], fieldsV [u2, v2], c.val]
    (if 1 + c.D * u1 * u2 * v1 * v2 = 0 ∨ 1 - c.D * u1 * u2 * v1 * v2 = 0 then .error .divZero else
      .ok (fieldsV [(u1 * v2 + v1 * u2) / (1 + c.D * u1 * u2 * v1 * v2), (v1 * v2 - c.A * u1 * u2) / (1 - c.D * u1 * u2 * v1 * v2)])) := by
  rw [callsTo_iff]
  refine fwp ?_
  refine wp_var (ev_A lk(rfl) hi) (wp_var (ev_D lk(rfl) hi) (wp_var (ev_pt0 lk(rfl)) (wp_var (ev_pt1 lk(rfl)) (wp_var (ev_pt0 lk(rfl)) (wp_var (ev_pt1 lk(rfl)) ?_)))))
  have hn1 := fun σ h5 h6 h7 h8 => ev_add (env := TState.env σ) (ev_mul (ev_fv (x := 5) (a := u1) h5) (ev_fv (x := 8) (a := v2) h8)) (ev_mul (ev_fv (x := 6) (a := v1) h6) (ev_fv (x := 7) (a := u2) h7))
  have hn2 := fun σ h3 h5 h6 h7 h8 => ev_sub (env := TState.env σ) (ev_mul (ev_fv (x := 6) (a := v1) h6) (ev_fv (x := 8) (a := v2) h8)) (ev_mul (ev_mul (ev_fv (x := 3) (a := c.A) h3) (ev_fv (x := 5) (a := u1) h5)) (ev_fv (x := 7) (a := u2) h7))
  have hd := fun σ h4 h5 h6 h7 h8 => ev_mul (env := TState.env σ) (ev_mul (ev_mul (ev_mul (ev_fv (x := 4) (a := c.D) h4) (ev_fv (x := 5) (a := u1) h5)) (ev_fv (x := 7) (a := u2) h7)) (ev_fv (x := 6) (a := v1) h6)) (ev_fv (x := 8) (a := v2) h8)
  by_cases h1 : 1 + c.D * u1 * u2 * v1 * v2 = 0
  · rw [if_pos (.inl h1)]
    refine wp_defFault (ev_divZero (hn1 _ rfl rfl rfl rfl) ?_) rfl
    rw [ev_add ev_fval (hd _ rfl rfl rfl rfl rfl), h1]
  · refine wp_var (ev_div (hn1 _ rfl rfl rfl rfl) (ev_add ev_fval (hd _ rfl rfl rfl rfl rfl)) h1) ?_
    by_cases h2 : 1 - c.D * u1 * u2 * v1 * v2 = 0
    · rw [if_pos (.inr h2)]
      refine wp_defFault (ev_divZero (hn2 _ rfl rfl rfl rfl rfl) ?_) rfl
      rw [ev_sub ev_fval (hd _ rfl rfl rfl rfl rfl), h2]
    · rw [if_neg (by tauto)]
      exact wp_var (ev_div (hn2 _ rfl rfl rfl rfl rfl) (ev_sub ev_fval (hd _ rfl rfl rfl rfl rfl)) h2) (wp_nil (ev_array (evS_expr (ev_fv rfl) (evS_expr (ev_fv rfl) evS_nil))))

theorem ptV_inj {E : Edwards (ZMod p)} {Q R : E.Pt} (h : ptV Q = ptV R) : Q = R := by
  simp only [ptV, fieldsV, List.map_cons, List.map_nil, AVal.array.injEq, List.cons.injEq, AVal.field.injEq, and_true] at h
  exact Edwards.Pt.ext h.1 h.2

theorem add_spec {E : Edwards (ZMod p)} {c : Params p} (hc : c.For E) (Q R : E.Pt) : CallsTo O P edwardsAdd [ptV Q, ptV R, c.val] (.ok (ptV (Q + R))) := by
  have := edwardsAdd_spec (O := O) (P := P) (c := c) (by rw [hc.inf]; rfl) (u1 := Q.u) (v1 := Q.v) (u2 := R.u) (v2 := R.v)
  rw [hc.a, hc.d, if_neg (by rintro (h | h); exacts [Edwards.den_plus Q.on R.on h, Edwards.den_minus Q.on R.on h])] at this
  exact this

theorem negate_spec {E : Edwards (ZMod p)} (Q : E.Pt) : CallsTo O P edwardsNegate [ptV Q] (.ok (ptV (-Q))) := by
  rw [callsTo_iff]
  exact fwp (wp_var (ev_pt0 lk(rfl)) (wp_var (ev_pt1 lk(rfl)) (wp_nil (ev_array (evS_expr (ev_neg (ev_fv rfl)) (evS_expr (ev_fv rfl) evS_nil))))))

theorem onCurve_spec {E : Edwards (ZMod p)} {c : Params p} (hc : c.For E) {u v : ZMod p} :
    CallsTo O P edwardsOnCurve [fieldsV [u, v], c.val] (open Classical in if E.On u v then .ok (.bool true) else .error .assertionFailed) := by
  have hi : c.infinity.length = 2 := by rw [hc.inf]; rfl
  rw [callsTo_iff]
  refine fwp (wp_var (ev_A lk(rfl) hi) (wp_var (ev_D lk(rfl) hi) (wp_var (ev_mul (ev_pt0 lk(rfl)) (ev_pt0 lk(rfl))) (wp_var (ev_mul (ev_pt1 lk(rfl)) (ev_pt1 lk(rfl))) (wp_var (ev_mul (ev_fv lk(rfl)) (ev_fv lk(rfl))) ?_)))))
  have hon : E.On u v ↔ c.A * (u * u) + v * v = 1 + c.D * (u * u * (v * v)) := by
    rw [Edwards.On, hc.a, hc.d]
    constructor <;> intro h <;> linear_combination h
  refine wp_assert (ev_eq (ev_add (ev_mul (ev_fv lk(rfl)) (ev_fv lk(rfl))) (ev_fv lk(rfl))) (ev_add ev_fval (ev_mul (ev_fv lk(rfl)) (ev_fv lk(rfl))))) (fun h => wp_nil ?_) (fun h => ?_)
  · simp only [decide_eq_true_eq, AVal.field.injEq] at h
    rw [if_pos (hon.2 h)]
    exact ev_bval
  · simp only [decide_eq_false_iff_not, AVal.field.injEq] at h
    rw [if_neg (hon.not.2 h)]

theorem wp_add {E : Edwards (ZMod p)} {c : Params p} (hP : Imports P ecc) (hc : c.For E) {Q R : E.Pt} {σ : TState p} {x y z w : TId} {ss : List (SStmt (ZMod p))} {S : Except Fault (TState p) → Prop}
    (hy : σ.env y = some (ptV Q)) (hz : σ.env z = some (ptV R)) (hw : σ.env w = some c.val) (h : WP O P (σ.set x (ptV (Q + R))) ss S) :
    WP O P σ (call x ptTy kEdAdd [ptv y, ptv z, ctx w] :: ss) S :=
  wp_callTo (evL_cons (ev_pt hy) (evL_cons (ev_pt hz) (evL_cons (ev_ctx hw (by rw [hc.inf]; rfl)) evL_nil))) (hP _ _ _ _ _ rfl) (add_spec hc Q R) h

theorem orderCheck_spec {E : Edwards (ZMod p)} {c : Params p} (hP : Imports P ecc) (hc : c.For E) (h8 : c.C = 8) (Q : E.Pt) :
    CallsTo O P edwardsOrderCheck [ptV Q, c.val] (.ok (.bool (open Classical in !decide (8 • Q = 0)))) := by
  have hi : c.infinity.length = 2 := by rw [hc.inf]; rfl
  rw [callsTo_iff]
  refine fwp (wp_var (ev_C lk(rfl) hi) (wp_assert (ev_eq (ev_fv lk(rfl)) ev_fval) (fun _ => ?_) (fun h => ?_)))
  · refine wp_add hP hc rfl rfl rfl (wp_add hP hc rfl rfl rfl (wp_add hP hc rfl rfl rfl (wp_nil ?_)))
    refine (ev_not (ev_and (ev_eq (ev_pt0 lk(rfl)) ev_fval) (ev_eq (ev_pt1 lk(rfl)) ev_fval))).trans ?_
    have h8 : Q + Q + (Q + Q) + (Q + Q + (Q + Q)) = 8 • Q := by
      rw [← two_nsmul, ← two_nsmul, ← two_nsmul, smul_smul, smul_smul]
      rfl
    rw [h8]
    congr 3
    rw [Bool.eq_iff_iff]
    simp only [AVal.field.injEq, Bool.and_eq_true, decide_eq_true_eq]
    exact ⟨fun h => Edwards.Pt.ext h.1 h.2, fun h => by rw [h]; exact ⟨rfl, rfl⟩⟩
  · simp [h8] at h

theorem orderCheck_cofactor {c : Params p} (hi : c.infinity.length = 2) (h8 : c.C ≠ 8) (u v : ZMod p) : CallsTo O P edwardsOrderCheck [fieldsV [u, v], c.val] (.error .assertionFailed) := by
  rw [callsTo_iff]
  refine fwp (wp_var (ev_C lk(rfl) hi) (wp_assert (ev_eq (ev_fv lk(rfl)) ev_fval) (fun h => ?_) (fun h => rfl)))
  simp [h8] at h

theorem scalarMult_spec {E : Edwards (ZMod p)} {c : Params p} (hP : Imports P ecc) (hc : c.For E) {bl : List Bool} (hl : bl.length = 256) (Q : E.Pt) :
    CallsTo O P edwardsScalarMult [boolsV bl, ptV Q, c.val] (.ok (ptV (natBE bl • Q))) := by
  have hi : c.infinity.length = 2 := by rw [hc.inf]; rfl
  rw [callsTo_iff]
  refine fwp (wp_var (v := ptV (0 : E.Pt)) (ev_member (ev_ctx lk(rfl) hi) ?_) (wp_var (ev_pt lk(rfl)) (wp_var (ev_pt (u := (0 : E.Pt).u) (v := (0 : E.Pt).v) lk(rfl)) ?_)))
  · simp only [List.lookup, ptV, Edwards.zero_u, Edwards.zero_v, fieldsV, ← hc.inf]
    rfl
  refine wp_for (fun i σ => σ.env 0 = some (boolsV bl) ∧ σ.env 2 = some c.val ∧ σ.env 4 = some (ptV ((2 ^ i) • Q)) ∧ σ.env 5 = some (ptV (natBE (bl.drop (256 - i)) • Q))) ev_ul ev_ul (by omega)
    ⟨rfl, rfl, ?_, ?_⟩ ?_ ?_
  · simp only [pow_zero, one_smul]; rfl
  · rw [List.drop_of_length_le (by omega)]
    simp only [natBE]
    rfl
  · rintro j σ - hj ⟨e0, e2, e4, e5⟩
    refine wp_var (ev_usub (w := .b32) ev_ul (ev_uv (x := 6) (n := j) rfl (by omega)) (by omega) (by show _ < 2 ^ 32; omega)) ?_
    refine wp_add hP hc (Q := natBE (bl.drop (256 - j)) • Q) (R := 2 ^ j • Q) e5 e4 e2 ?_
    refine wp_var (ev_cond (ev_selectBits (bl := bl) (k := 255 - j) (ev_bv (x := 0) lk(e0) hl) (ev_uv (x := 7) lk(rfl) (by omega)) (by omega)) (ev_pt (x := 8) lk(rfl)) (ev_pt (x := 5) lk(e5))) ?_
    refine wp_add hP hc (Q := 2 ^ j • Q) (R := 2 ^ j • Q) e4 e4 e2 (wp_nil ⟨e0, e2, ?_, ?_⟩)
    · show some (ptV (2 ^ j • Q + 2 ^ j • Q)) = _
      rw [← two_nsmul, smul_smul, pow_succ, mul_comm]
    · refine congrArg some ?_
      have := natBE_drop_succ bl j (by omega)
      simp only [hl] at this
      rw [this]
      have hj' : 255 - j = 256 - (j + 1) := by omega
      simp only [hj']
      cases bl[256 - (j + 1)]
      · simp; rfl
      · simp only [Bool.toNat_true, one_mul, if_true, add_smul, add_comm (natBE _ • Q)]; rfl
  · rintro σ ⟨e0, e2, e4, e5⟩
    rw [Nat.sub_self, List.drop_zero] at e5
    refine wp_callTo (evL_cons (ev_pt (x := 5) e5) (evL_cons (ev_ctx (x := 2) e2 hi) evL_nil)) (hP _ _ _ _ _ rfl) (by have := onCurve_spec (O := O) (P := P) hc (u := (natBE bl • Q).u) (v := (natBE bl • Q).v); rwa [if_pos (natBE bl • Q).on] at this) ?_
    exact wp_assert (ev_ident (x := 9) (t := .bool) rfl trivial) (fun _ => wp_nil (ev_pt e5)) (fun h => by cases h)

/-! ### Functions whose result is chosen by the prover -/

/-- The statements can be executed such that `ret` has the value `r`. -/
def OkTo (O : Oracle p Z) (P : Program (ZMod p)) (σ : TState p) (ss : List (SStmt (ZMod p))) (ret : TExpr (ZMod p)) (r : AVal (ZMod p)) : Prop :=
  ∃ σ', ExecSs O P σ ss (.ok σ') ∧ evalT σ'.env ret = .ok r

theorem calls_okTo {i : Inst (ZMod p)} {vs : List (AVal (ZMod p))} {r : AVal (ZMod p)} : Calls O P i vs (.ok r) ↔ OkTo O P (calleeState i vs) i.body i.ret r := calls_ok

section
variable {σ : TState p} {ss : List (SStmt (ZMod p))} {ret : TExpr (ZMod p)} {r : AVal (ZMod p)}

theorem okTo_nil {v : AVal (ZMod p)} (h : evalT σ.env ret = .ok v) : OkTo O P σ [] ret r ↔ r = v := by
  simp only [OkTo, exec_nil, Except.ok.injEq, exists_eq_left, h]
  exact eq_comm

theorem okTo_set {x : TId} {t : CType} {e : TExpr (ZMod p)} {v : AVal (ZMod p)} (he : evalT σ.env e = .ok v) : OkTo O P σ (set x t e :: ss) ret r ↔ OkTo O P (σ.set x v) ss ret r := by
  simp only [OkTo, exec_set he]

theorem okTo_def {a : TAssignee (ZMod p)} {e : TExpr (ZMod p)} {v u : AVal (ZMod p)} (he : evalT σ.env e = .ok v) (hu : setA σ.env a v = .ok u) :
    OkTo O P σ (.simple (.definition a e) :: ss) ret r ↔ OkTo O P (σ.set a.root u) ss ret r := by
  have : ∀ σ', ExecSs O P σ (.simple (.definition a e) :: ss) (.ok σ') ↔ ExecSs O P (σ.set a.root u) ss (.ok σ') := by
    intro σ'
    constructor
    · intro h
      cases h with
      | cons h h' => cases h with | simple h => cases h with
        | definition h1 h2 =>
          rw [he] at h1; cases h1
          rw [hu] at h2; cases h2
          exact h'
    · intro h
      exact .cons (.simple (.definition he hu)) h
  simp only [OkTo, this]

theorem okTo_assert {e : TExpr (ZMod p)} {b : Bool} (he : evalT σ.env e = .ok (.bool b)) : OkTo O P σ (assert e :: ss) ret r ↔ b = true ∧ OkTo O P σ ss ret r := by
  simp only [OkTo, exec_assert he]
  cases b <;> simp

theorem okTo_call {x : TId} {t : CType} {key : ℕ} {gens args : List (TExpr (ZMod p))} {Q : AVal (ZMod p) → Prop} (h : ∀ v, ExecCall O P σ t key gens args (.ok v) ↔ Q v) :
    OkTo O P σ (.call (.ident x t) t key gens args :: ss) ret r ↔ ∃ v, Q v ∧ OkTo O P (σ.set x v) ss ret r := by
  simp only [OkTo, exec_call_ok, h]
  constructor
  · rintro ⟨σ', ⟨v, h1, h2⟩, h3⟩
    exact ⟨v, h1, σ', h2, h3⟩
  · rintro ⟨v, h1, σ', h2, h3⟩
    exact ⟨σ', ⟨v, h1, h2⟩, h3⟩

/-- A call with one result. -/
theorem okTo_callTo {x : TId} {t : CType} {key : ℕ} {args : List (TExpr (ZMod p))} {i : Inst (ZMod p)} {vs : List (AVal (ZMod p))} {v : AVal (ZMod p)} (ha : evalL σ.env args = .ok vs)
    (hP : P key [] (args.map TExpr.ty) t = some (.here i)) (hc : CallsTo O P i vs (.ok v)) : OkTo O P σ (call x t key args :: ss) ret r ↔ OkTo O P (σ.set x v) ss ret r := by
  rw [call, okTo_call (Q := fun w => w = v) (fun w => by rw [call_here [] evL_nil ha hP, hc, Except.ok.injEq])]
  simp

/-- `nonStrictUnpack256` -/
theorem okTo_nonStrict {x y : TId} {a : ZMod p} (hP : Imports P utils) (hO : Unpacks O) (hy : σ.env y = some (.field a)) :
    OkTo O P σ (call x (.array 256 .bool) kNonStrict [fv y] :: ss) ret r ↔ ∃ bl, O.unpack 254 a bl ∧ OkTo O P (σ.set x (boolsV (false :: false :: bl))) ss ret r := by
  rw [call, okTo_call (Q := fun v => ∃ bl, O.unpack 254 a bl ∧ v = boolsV (false :: false :: bl))
    (fun w => by rw [call_here (i := nonStrictUnpack256) [] evL_nil (evL_cons (ev_fv hy) evL_nil) (hP _ _ _ _ _ rfl), nonStrictUnpack256_spec hP hO])]
  constructor
  · rintro ⟨v, ⟨bl, h1, rfl⟩, h2⟩
    exact ⟨bl, h1, h2⟩
  · rintro ⟨bl, h1, h2⟩
    exact ⟨_, ⟨bl, h1, rfl⟩, h2⟩
end

theorem ownership_spec {E : Edwards (ZMod p)} {c : Params p} (hP : Imports P ecc) (hU : Imports P utils) (hO : Unpacks O) (hc : c.For E) {G : E.Pt} (hu : c.Gu = G.u) (hv : c.Gv = G.v)
    {a b sk : ZMod p} {r : AVal (ZMod p)} : Calls O P proofOfOwnership [fieldsV [a, b], .field sk, c.val] (.ok r) ↔
      ∃ bl, O.unpack 254 sk bl ∧ r = .bool (open Classical in decide (ptV (natBE bl • G) = fieldsV [a, b])) := by
  have hi : c.infinity.length = 2 := by rw [hc.inf]; rfl
  have e0 : (calleeState proofOfOwnership [fieldsV [a, b], .field sk, c.val]).env 0 = some (fieldsV [a, b]) := rfl
  have e1 : (calleeState proofOfOwnership [fieldsV [a, b], .field sk, c.val]).env 1 = some (.field sk) := rfl
  have e2 : (calleeState proofOfOwnership [fieldsV [a, b], .field sk, c.val]).env 2 = some c.val := rfl
  rw [calls_okTo]
  generalize calleeState proofOfOwnership [fieldsV [a, b], .field sk, c.val] = σ0 at e0 e1 e2
  have s3 := ev_array (t := .field) (n := 2) (evS_expr (ev_Gu e2 hi) (evS_expr (ev_Gv e2 hi) evS_nil))
  have hpt : (.array [.field c.Gu, .field c.Gv] : AVal (ZMod p)) = ptV G := by rw [hu, hv]; rfl
  rw [hpt] at s3
  refine (okTo_set s3).trans ((okTo_nonStrict hU hO (a := sk) lk(e1)).trans (exists_congr fun bl => and_congr_right fun h => ?_))
  have hlen : (false :: false :: bl).length = 256 := by simp [(hO _ _ _ h).1]
  have hnat : natBE (false :: false :: bl) = natBE bl := by simp [natBE]
  refine (okTo_callTo (evL_cons (ev_bv (x := 4) (n := 256) lk(rfl) hlen) (evL_cons (ev_pt (x := 3) lk(rfl)) (evL_cons (ev_ctx (x := 2) lk(e2) hi) evL_nil))) (hP _ _ _ _ _ rfl) (scalarMult_spec hP hc hlen G)).trans ?_
  rw [hnat]
  refine (okTo_set (ev_and (ev_eq (ev_pt0 lk(rfl)) (ev_pt0 lk(e0))) (ev_eq (ev_pt1 lk(rfl)) (ev_pt1 lk(e0))))).trans ((okTo_nil (ev_ident lk(rfl) (by exact trivial))).trans ?_)
  suffices h : ∀ b1 b2 : Bool, b1 = b2 → (r = .bool b1 ↔ r = .bool b2) by
    refine h _ _ ?_
    rw [Bool.eq_iff_iff]
    simp [ptV, fieldsV]
  rintro b1 _ rfl
  rfl

theorem compress_spec (hU : Imports P utils) (hO : Unpacks O) {u v : ZMod p} {r : AVal (ZMod p)} : Calls O P edwardsCompress [fieldsV [u, v]] (.ok r) ↔
    ∃ bx, O.unpack 254 u bx ∧ ∃ bly, O.unpack 254 v bly ∧ r = boolsV (bx.getLastD false :: false :: bly) := by
  have e0 : (calleeState edwardsCompress [fieldsV [u, v]]).env 0 = some (fieldsV [u, v]) := rfl
  rw [calls_okTo]
  generalize calleeState edwardsCompress [fieldsV [u, v]] = σ0 at e0
  refine (okTo_set (ev_pt0 e0)).trans ((okTo_set (ev_pt1 lk(e0))).trans ((okTo_nonStrict hU hO (a := u) lk(rfl)).trans (exists_congr fun bx => and_congr_right fun hx =>
    (okTo_nonStrict hU hO (a := v) lk(rfl)).trans (exists_congr fun bly => and_congr_right fun hy => ?_))))
  have lx := (hO _ _ _ hx).1
  have ly := (hO _ _ _ hy).1
  have hlast : (false :: false :: bx)[255]'(by simp [lx]) = bx.getLastD false := by
    rw [List.getLastD_eq_getLast?, List.getLast?_eq_getElem?]
    simp [lx]
  refine (okTo_set (ev_selectBits (ev_bv (x := 3) (n := 256) (bl := false :: false :: bx) lk(rfl) (by simp [lx])) (ev_ul (n := 255)) (by simp [lx]))).trans ?_
  rw [hlast]
  refine (okTo_def (ev_ident (x := 5) (t := .bool) lk(rfl) (by exact trivial)) (setA_select (x := 4) (vs := (false :: false :: bly).map .bool) lk(rfl) (hasType_boolsV (by simp [ly])) (ev_ul (n := 0)) (by simp))).trans ?_
  exact okTo_nil (ev_bv (x := 4) (bl := bx.getLastD false :: false :: bly) lk(rfl) (by simp [ly]))

end Zok.Typed.Std
