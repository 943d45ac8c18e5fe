import Verif.Lemmas.SourceFun
import Verif.Lemmas.TypedDet
import Verif.Spec.Pipeline

/-
A source expression has the value of a typed expression which reads it; a source function returns what the typed function returns.
-/

set_option linter.unusedVariables false
set_option linter.unusedSimpArgs false
set_option linter.unusedSectionVars false

namespace Zok.Sem
open Typed Abi
variable {p : ℕ} {D : Decls} {G : Scope} [Fact p.Prime] {E : SEnv p} {env : TEnv p} {Z : Type} {O : Oracle p Z}

theorem asF {x : Except Fault (AVal (ZMod p))} {a : ZMod p} (h : x.bind asField = .ok a) : x = .ok (.field a) := by
  obtain ⟨v, rfl, h⟩ := Typed.bind_ok h
  rw [asField_ok h]
theorem asB {x : Except Fault (AVal (ZMod p))} {a : Bool} (h : x.bind asBool = .ok a) : x = .ok (.bool a) := by
  obtain ⟨v, rfl, h⟩ := Typed.bind_ok h
  rw [asBool_ok h]
theorem asU {w : UW} {x : Except Fault (AVal (ZMod p))} {a : ℕ} (h : x.bind (asUint w) = .ok a) : x = .ok (.uint w a) := by
  obtain ⟨v, rfl, h⟩ := Typed.bind_ok h
  rw [asUint_ok h]
theorem asA {x : Except Fault (AVal (ZMod p))} {a : List (AVal (ZMod p))} (h : x.bind asArray = .ok a) : x = .ok (.array a) := by
  obtain ⟨v, rfl, h⟩ := Typed.bind_ok h
  rw [asArray_ok h]

/-- With the type. -/
theorem evCast {s : SExpr} {t u : CType} {v : AVal (ZMod p)} (h : t = u) (a : Ev D E s t v) : Ev D E s u v := h ▸ a

theorem definite_mem : ∀ {ss : List SExpr} {s : SExpr}, DefiniteL ss → s ∈ ss → s.Definite
  | _ :: _, _, h, hs => by
    rcases List.mem_cons.1 hs with rfl | hs
    · exact h.1
    · exact definite_mem h.2 hs

theorem lookup_zip_mem {names : List Str} {ss : List SExpr} {m : Str} {s : SExpr} (h : (names.zip ss).lookup m = some s) : s ∈ ss :=
  (List.of_mem_zip (lookup_mem h)).2

theorem reads_uval_wt {s : SExpr} {e : TExpr (ZMod p)} {w : UW} {n : ℕ} (h : Reads D G s e) (he : e = .uval w n) : e.Wt := by
  subst he
  cases h <;> assumption

set_option maxHeartbeats 2000000 in
mutual
/-- The value of a typed expression is a value of the source expression. -/
theorem ev_complete (ho : EnvOk G E env) : ∀ {s : SExpr} {e : TExpr (ZMod p)}, Reads D G s e → e.Wt → s.Definite → ∀ {v : AVal (ZMod p)}, evalT env e = .ok v → Ev D E s e.ty v
  | _, _, .intF h, hw, hd, v, he => by
    simp only [evalT] at he; cases he; exact .intF h
  | _, _, .intU h, hw, hd, v, he => by
    simp only [evalT] at he; cases he; exact .intU h
  | _, _, .fieldC h, hw, hd, v, he => by
    simp only [evalT] at he; cases he; exact .fieldC
  | _, _, .uintC h, hw, hd, v, he => by
    simp only [evalT] at he; cases he; exact .uintC
  | _, _, .boolC, hw, hd, v, he => by
    simp only [evalT] at he; cases he; exact .boolC
  | .ident x, _, .ident (t := t) h, hw, hd, v, he => by
    rw [ho.types] at h
    obtain ⟨⟨t', v'⟩, h1, h2⟩ := Option.map_eq_some_iff.1 h
    cases h2
    obtain ⟨a, b⟩ := ho.vals _ _ _ h1
    simp only [evalT, b, if_pos a] at he
    cases he
    exact .ident h1
  | _, _, .fneg r1, hw, hd, v, he => by
    simp only [evalT] at he
    obtain ⟨a, ha, he⟩ := Typed.bind_ok he
    cases he
    exact .fneg (evCast hw.1 (ev_complete ho r1 hw.2 hd (asF ha)))
  | _, _, .fpos r1, hw, hd, v, he => by
    simp only [evalT] at he
    obtain ⟨a, ha, he⟩ := Typed.bind_ok he
    cases he
    exact .fpos (evCast hw.1 (ev_complete ho r1 hw.2 hd (asF ha)))
  | _, _, .uneg r1, hw, hd, v, he => by
    simp only [evalT] at he
    obtain ⟨a, ha, he⟩ := Typed.bind_ok he
    cases he
    exact .uneg (evCast hw.1 (ev_complete ho r1 hw.2 hd (asU ha)))
  | _, _, .upos r1, hw, hd, v, he => by
    simp only [evalT] at he
    obtain ⟨a, ha, he⟩ := Typed.bind_ok he
    cases he
    exact .upos (evCast hw.1 (ev_complete ho r1 hw.2 hd (asU ha)))
  | _, _, .unot r1, hw, hd, v, he => by
    simp only [evalT] at he
    obtain ⟨a, ha, he⟩ := Typed.bind_ok he
    cases he
    exact .unot (evCast hw.1 (ev_complete ho r1 hw.2 hd (asU ha)))
  | _, _, .bnot r1, hw, hd, v, he => by
    simp only [evalT] at he
    obtain ⟨a, ha, he⟩ := Typed.bind_ok he
    cases he
    exact .bnot (evCast hw.1 (ev_complete ho r1 hw.2 hd (asB ha)))
  | .bin op _ _, _, .fbin (o := o) ho' r1 r2, hw, hd, v, he => by
    simp only [evalT] at he
    obtain ⟨a, ha, he⟩ := Typed.bind_ok he
    obtain ⟨b, hb, he⟩ := Typed.bind_ok he
    obtain ⟨c, hc, he⟩ := Typed.bind_ok he
    cases he
    have i1 := evCast hw.1 (ev_complete ho r1 hw.2.2.1 hd.1 (asF ha))
    have i2 := evCast hw.2.1 (ev_complete ho r2 hw.2.2.2 hd.2 (asF hb))
    cases op <;> simp only [BinOp.field, Option.some.injEq, reduceCtorEq] at ho' <;> subst ho' <;> simp only [FOp.eval] at hc
    · cases hc; exact .fadd i1 i2
    · cases hc; exact .fsub i1 i2
    · cases hc; exact .fmul i1 i2
    · split at hc
      · cases hc
      · rename_i h0
        cases hc; exact .fdiv i1 i2 h0
    all_goals cases hc
  | _, _, .ubin r1 r2, hw, hd, v, he => by
    simp only [evalT] at he
    simp only [TExpr.Wt, uop_right] at hw
    obtain ⟨a, ha, he⟩ := Typed.bind_ok he
    obtain ⟨b, hb, he⟩ := Typed.bind_ok he
    obtain ⟨c, hc, he⟩ := Typed.bind_ok he
    cases he
    rw [uop_right] at hb
    exact .ubin (evCast hw.1 (ev_complete ho r1 hw.2.2.1 hd.1 (asU ha))) (evCast hw.2.1 (ev_complete ho r2 hw.2.2.2 hd.2 (asU hb))) hc
  | _, _, .fpow r1 r2, hw, hd, v, he => by
    simp only [evalT] at he
    obtain ⟨a, ha, he⟩ := Typed.bind_ok he
    obtain ⟨b, hb, he⟩ := Typed.bind_ok he
    rw [if_pos trivial] at he
    cases he
    exact .pow (evCast hw.1 (ev_complete ho r1 hw.2.2.1 hd.1 (asF ha))) (evCast hw.2.1 (ev_complete ho r2 hw.2.2.2 hd.2 (asU hb)))
  | _, _, .fshl r1 r2, hw, hd, v, he => by
    simp only [evalT] at he
    obtain ⟨a, ha, he⟩ := Typed.bind_ok he
    obtain ⟨b, hb, he⟩ := Typed.bind_ok he
    rw [if_neg (by simp)] at he
    cases he
  | _, _, .fshr r1 r2, hw, hd, v, he => by
    simp only [evalT] at he
    obtain ⟨a, ha, he⟩ := Typed.bind_ok he
    obtain ⟨b, hb, he⟩ := Typed.bind_ok he
    rw [if_neg (by simp)] at he
    cases he
  | _, _, .ushl r1 r2, hw, hd, v, he => by
    simp only [evalT] at he
    obtain ⟨a, ha, he⟩ := Typed.bind_ok he
    obtain ⟨b, hb, he⟩ := Typed.bind_ok he
    obtain ⟨c, hc, he⟩ := Typed.bind_ok he
    simp only [UOp.eval] at hc
    cases hc
    cases he
    exact .shl (evCast hw.1 (ev_complete ho r1 hw.2.2.1 hd.1 (asU ha))) (evCast hw.2.1 (ev_complete ho r2 hw.2.2.2 hd.2 (asU hb)))
  | _, _, .ushr r1 r2, hw, hd, v, he => by
    simp only [evalT] at he
    obtain ⟨a, ha, he⟩ := Typed.bind_ok he
    obtain ⟨b, hb, he⟩ := Typed.bind_ok he
    obtain ⟨c, hc, he⟩ := Typed.bind_ok he
    simp only [UOp.eval] at hc
    cases hc
    cases he
    exact .shr (evCast hw.1 (ev_complete ho r1 hw.2.2.1 hd.1 (asU ha))) (evCast hw.2.1 (ev_complete ho r2 hw.2.2.2 hd.2 (asU hb)))
  | .logic op _ _, _, .logic r1 r2, hw, hd, v, he => by
    simp only [evalT] at he
    obtain ⟨a, ha, he⟩ := Typed.bind_ok he
    obtain ⟨b, hb, he⟩ := Typed.bind_ok he
    have i1 := evCast hw.1 (ev_complete ho r1 hw.2.2.1 hd.1 (asB ha))
    have i2 := evCast hw.2.1 (ev_complete ho r2 hw.2.2.2 hd.2 (asB hb))
    cases op <;> cases he
    · exact .and i1 i2
    · exact .or i1 i2
  | _, _, .logicF r1 r2, hw, hd, v, he => by
    simp only [evalT] at he
    obtain ⟨a, ha, he⟩ := Typed.bind_ok he
    obtain ⟨b, hb, he⟩ := Typed.bind_ok he
    obtain ⟨c, hc, he⟩ := Typed.bind_ok he
    simp only [FOp.eval] at hc
    cases hc
  | _, _, .logicU r1 r2, hw, hd, v, he => by
    simp only [evalT] at he
    simp only [TExpr.Wt, UOp.rightWidth] at hw
    obtain ⟨a, ha, he⟩ := Typed.bind_ok he
    obtain ⟨b, hb, he⟩ := Typed.bind_ok he
    obtain ⟨c, hc, he⟩ := Typed.bind_ok he
    simp only [UOp.eval] at hc
    cases hc
    cases he
    exact .andU (evCast hw.1 (ev_complete ho r1 hw.2.2.1 hd.1 (asU ha))) (evCast hw.2.1 (ev_complete ho r2 hw.2.2.2 hd.2 (asU hb)))
  | _, _, .flt r1 r2, hw, hd, v, he => by
    simp only [evalT] at he
    obtain ⟨a, ha, he⟩ := Typed.bind_ok he
    obtain ⟨b, hb, he⟩ := Typed.bind_ok he
    split at he
    · rename_i hc
      cases he
      exact .relF (op := .lt) hd.1 (evCast hw.1 (ev_complete ho r1 hw.2.2.1 hd.2.1 (asF ha))) (evCast hw.2.1 (ev_complete ho r2 hw.2.2.2 hd.2.2 (asF hb)))
        (by rw [lit_eq r1 r2 hw.1 hw.2.1 hw.2.2.1 hw.2.2.2]; exact hc)
    · cases he
  | _, _, .fle r1 r2, hw, hd, v, he => by
    simp only [evalT] at he
    obtain ⟨a, ha, he⟩ := Typed.bind_ok he
    obtain ⟨b, hb, he⟩ := Typed.bind_ok he
    split at he
    · rename_i hc
      cases he
      exact .relF (op := .le) hd.1 (evCast hw.1 (ev_complete ho r1 hw.2.2.1 hd.2.1 (asF ha))) (evCast hw.2.1 (ev_complete ho r2 hw.2.2.2 hd.2.2 (asF hb)))
        (by rw [lit_eq r1 r2 hw.1 hw.2.1 hw.2.2.1 hw.2.2.2]; exact hc)
    · cases he
  | _, _, .fgt r1 r2, hw, hd, v, he => by
    simp only [evalT] at he
    obtain ⟨a, ha, he⟩ := Typed.bind_ok he
    obtain ⟨b, hb, he⟩ := Typed.bind_ok he
    split at he
    · rename_i hc
      cases he
      exact .relF (op := .gt) hd.1 (evCast hw.2.1 (ev_complete ho r1 hw.2.2.2 hd.2.1 (asF hb))) (evCast hw.1 (ev_complete ho r2 hw.2.2.1 hd.2.2 (asF ha)))
        (by rw [lit_eq r1 r2 hw.2.1 hw.1 hw.2.2.2 hw.2.2.1]; exact cmp_comm hc)
    · cases he
  | _, _, .fge r1 r2, hw, hd, v, he => by
    simp only [evalT] at he
    obtain ⟨a, ha, he⟩ := Typed.bind_ok he
    obtain ⟨b, hb, he⟩ := Typed.bind_ok he
    split at he
    · rename_i hc
      cases he
      exact .relF (op := .ge) hd.1 (evCast hw.2.1 (ev_complete ho r1 hw.2.2.2 hd.2.1 (asF hb))) (evCast hw.1 (ev_complete ho r2 hw.2.2.1 hd.2.2 (asF ha)))
        (by rw [lit_eq r1 r2 hw.2.1 hw.1 hw.2.2.2 hw.2.2.1]; exact cmp_comm hc)
    · cases he
  | _, _, .ult r1 r2, hw, hd, v, he => by
    obtain ⟨⟨w, t1, t2⟩, w1, w2⟩ := hw
    simp only [evalT, t1, asUintOf] at he
    obtain ⟨a, ha, he⟩ := Typed.bind_ok he
    obtain ⟨b, hb, he⟩ := Typed.bind_ok he
    cases he
    exact .relU (op := .lt) hd.1 (evCast t1 (ev_complete ho r1 w1 hd.2.1 (asU ha))) (evCast t2 (ev_complete ho r2 w2 hd.2.2 (asU hb)))
  | _, _, .ule r1 r2, hw, hd, v, he => by
    obtain ⟨⟨w, t1, t2⟩, w1, w2⟩ := hw
    simp only [evalT, t1, asUintOf] at he
    obtain ⟨a, ha, he⟩ := Typed.bind_ok he
    obtain ⟨b, hb, he⟩ := Typed.bind_ok he
    cases he
    exact .relU (op := .le) hd.1 (evCast t1 (ev_complete ho r1 w1 hd.2.1 (asU ha))) (evCast t2 (ev_complete ho r2 w2 hd.2.2 (asU hb)))
  | _, _, .ugt r1 r2, hw, hd, v, he => by
    obtain ⟨⟨w, t1, t2⟩, w1, w2⟩ := hw
    simp only [evalT, t1, asUintOf] at he
    obtain ⟨a, ha, he⟩ := Typed.bind_ok he
    obtain ⟨b, hb, he⟩ := Typed.bind_ok he
    cases he
    exact .relU (op := .gt) hd.1 (evCast t2 (ev_complete ho r1 w2 hd.2.1 (asU hb))) (evCast t1 (ev_complete ho r2 w1 hd.2.2 (asU ha)))
  | _, _, .uge r1 r2, hw, hd, v, he => by
    obtain ⟨⟨w, t1, t2⟩, w1, w2⟩ := hw
    simp only [evalT, t1, asUintOf] at he
    obtain ⟨a, ha, he⟩ := Typed.bind_ok he
    obtain ⟨b, hb, he⟩ := Typed.bind_ok he
    cases he
    exact .relU (op := .ge) hd.1 (evCast t2 (ev_complete ho r1 w2 hd.2.1 (asU hb))) (evCast t1 (ev_complete ho r2 w1 hd.2.2 (asU ha)))
  | _, _, .eq r1 r2, hw, hd, v, he => by
    simp only [evalT] at he
    obtain ⟨a, ha, he⟩ := Typed.bind_ok he
    obtain ⟨b, hb, he⟩ := Typed.bind_ok he
    have i1 := ev_complete ho r1 hw.2.2.1 hd.2.1 ha
    have i2 := evCast hw.1.symm (ev_complete ho r2 hw.2.2.2 hd.2.2 hb)
    cases he
    by_cases hab : a = b
    · subst hab
      simp only [decide_true]
      exact .eqT hd.1 i1 i2
    · simp only [hab, decide_false]
      exact .eqF hd.1 i1 i2 hab
  | _, _, .cond r0 r1 r2, hw, hd, v, he => by
    simp only [evalT] at he
    obtain ⟨k, hk, he⟩ := Typed.bind_ok he
    obtain ⟨a, ha, he⟩ := Typed.bind_ok he
    obtain ⟨b, hb, he⟩ := Typed.bind_ok he
    have i0 := evCast hw.1 (ev_complete ho r0 hw.2.2.2.1 hd.1 (asB hk))
    have i1 := evCast hw.2.1 (ev_complete ho r1 hw.2.2.2.2.1 hd.2.1 ha)
    have i2 := evCast hw.2.2.1 (ev_complete ho r2 hw.2.2.2.2.2 hd.2.2 hb)
    cases he
    cases k
    · exact .condF i0 i1 i2
    · exact .condT i0 i1 i2
  | _, _, .select r1 r2, hw, hd, v, he => by
    obtain ⟨⟨n, hn⟩, h2, w1, w2⟩ := hw
    simp only [evalT] at he
    obtain ⟨a, ha, he⟩ := Typed.bind_ok he
    obtain ⟨k, hk, he⟩ := Typed.bind_ok he
    exact .select hd.1 (evCast hn (ev_complete ho r1 w1 hd.2.1 (asA ha))) (evCast h2 (ev_complete ho r2 w2 hd.2.2 (asU hk))) (selectVal_ok he)
  | _, _, .element r1, hw, hd, v, he => by
    obtain ⟨⟨ts, hts, hi⟩, w1⟩ := hw
    simp only [evalT] at he
    obtain ⟨a, ha, he⟩ := Typed.bind_ok he
    split at he
    · split at he
      · rename_i hv
        cases he
        exact .element hd.1 (evCast hts (ev_complete ho r1 w1 hd.2 ha)) hi hv
      · cases he
    · cases he
  | _, _, .member r1, hw, hd, v, he => by
    obtain ⟨⟨ts, hts, hi⟩, w1⟩ := hw
    simp only [evalT] at he
    obtain ⟨a, ha, he⟩ := Typed.bind_ok he
    split at he
    · split at he
      · rename_i hv
        cases he
        exact .member hd.1 (evCast hts (ev_complete ho r1 w1 hd.2 ha)) hi hv
      · cases he
    · cases he
  | _, _, .array r1, hw, hd, v, he => by
    obtain ⟨-, hn, hw⟩ := hw
    simp only [evalT] at he
    obtain ⟨vs, hvs, he⟩ := Typed.bind_ok he
    cases he
    exact .array (evS_complete ho r1 hw hd hn hvs)
  | _, _, .repeat_ r1 r2, hw, hd, v, he => by
    obtain ⟨⟨-, t1⟩, hc, w1⟩ := hw
    simp only [evalT] at he
    obtain ⟨a, ha, he⟩ := Typed.bind_ok he
    obtain ⟨k, hk, he⟩ := Typed.bind_ok he
    have i2 := ev_complete ho r2 (reads_uval_wt r2 hc) hd.2 (asU hk)
    have hk := asU hk
    rw [hc] at hk i2
    simp only [evalT, Except.ok.injEq, AVal.uint.injEq, true_and] at hk
    cases he
    exact hk ▸ .repeat_ (evCast t1 (ev_complete ho r1 w1 hd.1 ha)) (by rw [hk]; exact i2)
  | _, _, .struct hD hl r1, hw, hd, v, he => by
    obtain ⟨-, h1, h2⟩ := hw
    simp only [evalT] at he
    obtain ⟨vs, hvs, he⟩ := Typed.bind_ok he
    cases he
    exact .struct hD (evM_complete ho r1 h1 h2 hd hvs)
  | _, _, .tuple r1, hw, hd, v, he => by
    obtain ⟨h1, h2⟩ := hw
    simp only [evalT] at he
    obtain ⟨vs, hvs, he⟩ := Typed.bind_ok he
    cases he
    have := evL_complete ho r1 h2 hd hvs
    rw [h1] at this
    exact .tuple this
theorem evL_complete (ho : EnvOk G E env) : ∀ {ss : List SExpr} {es : List (TExpr (ZMod p))}, ReadsL D G ss es → WtL es → DefiniteL ss → ∀ {vs : List (AVal (ZMod p))},
    evalL env es = .ok vs → EvL D E ss (es.map TExpr.ty) vs
  | _, _, .nil, _, _, vs, he => by
    simp only [evalL] at he; cases he; exact .nil
  | _, _, .cons r1 r2, hw, hd, vs, he => by
    simp only [evalL] at he
    obtain ⟨a, ha, he⟩ := Typed.bind_ok he
    obtain ⟨b, hb, he⟩ := Typed.bind_ok he
    cases he
    exact .cons (ev_complete ho r1 hw.1 hd.1 ha) (evL_complete ho r2 hw.2 hd.2 hb)
theorem evS_complete (ho : EnvOk G E env) : ∀ {ss : List SSpread} {es : List (TSpread (ZMod p))}, ReadsS D G ss es → ∀ {t : CType} {n : ℕ}, WtS t es → DefiniteS ss →
    spreadCount t es n → ∀ {vs : List (AVal (ZMod p))}, evalS env es = .ok vs → EvS D E ss n t vs
  | _, _, .nil, _, _, _, _, hn, vs, he => by
    simp only [evalS] at he; cases he; cases hn; exact .nil
  | _, _, .expr r1 r2, _, _, hw, hd, hn, vs, he => by
    obtain ⟨k, rfl, hn⟩ := hn
    simp only [evalS] at he
    obtain ⟨a, ha, he⟩ := Typed.bind_ok he
    obtain ⟨b, hb, he⟩ := Typed.bind_ok he
    cases he
    exact .expr (evCast hw.1.1 (ev_complete ho r1 hw.1.2 hd.1 ha)) (evS_complete ho r2 hw.2 hd.2 hn hb)
  | _, _, .spread r1 r2, _, _, hw, hd, hn, vs, he => by
    obtain ⟨m, k, hm, rfl, hn⟩ := hn
    simp only [evalS] at he
    obtain ⟨a, ha, he⟩ := Typed.bind_ok he
    obtain ⟨b, hb, he⟩ := Typed.bind_ok he
    cases he
    exact .spread hd.1.1 (evCast hm (ev_complete ho r1 hw.1 hd.1.2 (asA ha))) (evS_complete ho r2 hw.2 hd.2 hn hb)
theorem evM_complete (ho : EnvOk G E env) : ∀ {names : List Str} {ss : List SExpr} {ms : List (Str × CType)} {es : List (TExpr (ZMod p))}, ReadsM D G names ss ms es →
    es.map TExpr.ty = ms.map Prod.snd → WtL es → DefiniteL ss → ∀ {vs : List (AVal (ZMod p))}, evalL env es = .ok vs → EvM D E names ss ms vs
  | _, _, _, _, .nil, _, _, _, vs, he => by
    simp only [evalL] at he; cases he; exact .nil
  | _, _, _, _, .cons hl r1 r2, ht, hw, hd, vs, he => by
    simp only [List.map_cons, List.cons.injEq] at ht
    simp only [evalL] at he
    obtain ⟨a, ha, he⟩ := Typed.bind_ok he
    obtain ⟨b, hb, he⟩ := Typed.bind_ok he
    cases he
    exact .cons hl (evCast ht.1 (ev_complete ho r1 hw.1 (definite_mem hd (lookup_zip_mem hl)) ha)) (evM_complete ho r2 ht.2 hw.2 hd hb)
end

/-! ### Statements -/

variable {V : SVars}

theorem evA_complete (ho : EnvOk V.types E env) {a : SAssignee} {a' : TAssignee (ZMod p)} (hr : ReadsA D V a a') : a'.Wt → a.Definite → ∀ {t : CType} {v : AVal (ZMod p)},
    a'.ty = some t → getA env a' = .ok v → EvA D E a t v := by
  induction hr with
  | @ident x t h =>
    intro hw hd t' v ht he
    cases ht
    have k := ho.types x
    simp only [SVars.types, h, Option.map_some] at k
    obtain ⟨⟨t', v'⟩, h1, h2⟩ := Option.map_eq_some_iff.1 k.symm
    cases h2
    obtain ⟨a, b⟩ := ho.vals _ _ _ h1
    simp only [getA, evalT, b, if_pos a] at he
    cases he
    exact .ident h1
  | select h1 h2 ih =>
    intro hw hd t v ht he
    obtain ⟨⟨n, u, hu⟩, hi, w2, w1⟩ := hw
    simp only [TAssignee.ty, hu, Option.some.injEq] at ht
    subst ht
    simp only [getA] at he
    obtain ⟨vs, hvs, he⟩ := Typed.bind_ok he
    obtain ⟨k, hk, he⟩ := Typed.bind_ok he
    exact .select (ih w1 hd.1 hu (asA hvs)) (evCast hi (ev_complete ho h2 w2 hd.2 (asU hk))) (selectVal_ok he)
  | member h1 ih =>
    intro hw hd t v ht he
    obtain ⟨⟨ms, u, hu, hm⟩, w1⟩ := hw
    simp only [TAssignee.ty, hu] at ht
    simp only [getA] at he
    obtain ⟨w, hv, he⟩ := Typed.bind_ok he
    split at he
    · split at he
      · rename_i hl
        cases he
        exact .member (ih w1 hd hu hv) ht hl
      · cases he
    · cases he
  | element h1 ih =>
    intro hw hd t v ht he
    obtain ⟨⟨ms, u, hu, hm⟩, w1⟩ := hw
    simp only [TAssignee.ty, hu] at ht
    simp only [getA] at he
    obtain ⟨w, hv, he⟩ := Typed.bind_ok he
    split at he
    · split at he
      · rename_i hl
        cases he
        exact .element (ih w1 hd hu hv) ht hl
      · cases he
    · cases he

theorem hasTypeL_some : ∀ {ts : List CType} {vs : List (AVal (ZMod p))} {i : ℕ} {t : CType}, HasTypeL ts vs → ts[i]? = some t → ∃ v, vs[i]? = some v
  | [], _, _, _, _, h => by simp at h
  | _ :: _, [], _, _, h, _ => h.elim
  | _ :: _, _ :: _, 0, _, _, _ => ⟨_, rfl⟩
  | _ :: _, _ :: _, i + 1, _, h, h1 => by
    obtain ⟨v, hv⟩ := hasTypeL_some h.2 (by simpa using h1)
    exact ⟨v, by simpa using hv⟩

theorem hasTypeM_some : ∀ {ms : List (Str × CType)} {fs : List (Str × AVal (ZMod p))} {m : Str} {t : CType}, HasTypeM ms fs → ms.lookup m = some t → ∃ v, fs.lookup m = some v
  | [], _, _, _, _, h => by simp at h
  | _ :: _, [], _, _, h, _ => h.elim
  | (k, t) :: ms, (k', w) :: fs, m, _, h, hl => by
    obtain ⟨rfl, h1, h2⟩ := h
    rw [List.lookup_cons] at hl ⊢
    split at hl
    · exact ⟨w, rfl⟩
    · exact hasTypeM_some h2 hl

theorem put_complete (ho : EnvOk V.types E env) {a : SAssignee} {a' : TAssignee (ZMod p)} (hr : ReadsA D V a a') : a'.Wt → a.Definite → ∀ {t : CType} {v w : AVal (ZMod p)},
    a'.ty = some t → setA env a' v = .ok w → (∃ old, EvA D E a t old) ∧ (∃ T w', E a'.root = some (T, w')) ∧ Put D E a v a'.root w := by
  induction hr with
  | @ident x t h =>
    intro hw hd t' v w ht he
    cases ht
    have k := ho.types x
    simp only [SVars.types, h, Option.map_some] at k
    obtain ⟨⟨t', v'⟩, h1, h2⟩ := Option.map_eq_some_iff.1 k.symm
    cases h2
    simp only [setA] at he
    cases he
    exact ⟨⟨v', .ident h1⟩, ⟨_, v', h1⟩, .ident⟩
  | @select a a' i e h1 h2 ih =>
    intro hw hd t v w ht he
    obtain ⟨⟨n, u, hu⟩, hi, w2, w1⟩ := hw
    simp only [TAssignee.ty, hu, Option.some.injEq] at ht
    subst ht
    simp only [setA] at he
    obtain ⟨vs, hvs, he⟩ := Typed.bind_ok he
    obtain ⟨k, hk, he⟩ := Typed.bind_ok he
    split at he
    · rename_i hlt
      have b := evCast hi (ev_complete ho h2 w2 hd.2 (asU hk))
      have c := evA_complete ho h1 w1 hd.1 hu (asA hvs)
      obtain ⟨-, i2, i3⟩ := ih w1 hd.1 hu he
      exact ⟨⟨vs[k], .select c b (List.getElem?_eq_getElem hlt)⟩, i2, .select c b hlt i3⟩
    · cases he
  | @member a a' m h1 ih =>
    intro hw hd t v w ht he
    obtain ⟨⟨ms, u, hu, hm⟩, w1⟩ := hw
    simp only [TAssignee.ty, hu] at ht
    simp only [setA] at he
    obtain ⟨o, hv, he⟩ := Typed.bind_ok he
    split at he
    · have c := evA_complete ho h1 w1 hd hu hv
      obtain ⟨-, i2, i3⟩ := ih w1 hd hu he
      have ty := (evA_type ho c h1 w1).1
      simp only [HasType] at ty
      obtain ⟨v', hv'⟩ := hasTypeM_some ty ht
      exact ⟨⟨v', .member c ht hv'⟩, i2, .member c i3⟩
    · cases he
  | @element a a' i h1 ih =>
    intro hw hd t v w ht he
    obtain ⟨⟨ms, u, hu, hm⟩, w1⟩ := hw
    simp only [TAssignee.ty, hu] at ht
    simp only [setA] at he
    obtain ⟨o, hv, he⟩ := Typed.bind_ok he
    split at he
    · have c := evA_complete ho h1 w1 hd hu hv
      obtain ⟨-, i2, i3⟩ := ih w1 hd hu he
      have ty := (evA_type ho c h1 w1).1
      simp only [HasType] at ty
      obtain ⟨v', hv'⟩ := hasTypeL_some ty ht
      exact ⟨⟨v', .element c ht hv'⟩, i2, .element c i3⟩
    · cases he

/-- The typed statements return a value, and so do those of the source; or an assertion fails, in both. -/
theorem run_complete {r : CType} {V : SVars} {ss : List SStmt} {ts : List (TStmt (ZMod p))} (hr : ReadsSS D V ss ts) : ∀ {E : SEnv p} {σ : TState p}, EnvOk V.types E σ.env →
    (∀ s ∈ ts, s.Wt r) → DefiniteSS ss → (∀ {σ' : TState p}, ExecTs O σ ts (.ok σ') → ∃ out, σ'.out = some out ∧ Run D r E ss out) ∧
    (ExecTs O σ ts (.error .assertionFailed) → RunFails D E ss) := by
  induction hr with
  | nil => intro E σ ho hw hd; exact hd.elim
  | @ret V e e' ss ts h1 h2 ih =>
    intro E σ ho hw hd
    have w := hw _ List.mem_cons_self
    cases h2 with
    | nil =>
      refine ⟨fun {σ'} h => ?_, fun h => ?_⟩
      · cases h with
        | cons h3 h4 =>
          cases h4
          cases h3 with
          | ret h3 => exact ⟨_, rfl, .ret (evCast w.1 (ev_complete ho h1 w.2 hd h3))⟩
      · cases h with
        | fault h3 =>
          cases h3 with
          | retFault h3 => exact (na_evalT _ _ h3).elim
        | cons h3 h4 => cases h4
    | _ => exact hd.elim
  | @definition V x t m e e' ss ts h1 h2 ih =>
    intro E σ ho hw hd
    have w := hw _ List.mem_cons_self
    have ht := Option.some.inj w.1
    have next : ∀ {v}, evalT σ.env e' = .ok v → Ev D E e t v ∧ EnvOk (V.insert x t m).types (E.set x t v) (σ.set x v).env := fun {v} hv =>
      ⟨evCast ht.symm (ev_complete ho h1 w.2.2 hd.1 hv), ho.insert (by have := eval_hasType _ _ _ w.2.2 hv; rwa [← ht] at this)⟩
    refine ⟨fun {σ'} h => ?_, fun h => ?_⟩
    · cases h with
      | cons h3 h4 =>
        cases h3 with
        | definition h3 h5 =>
          cases h5
          obtain ⟨a, b⟩ := next h3
          obtain ⟨out, c, d⟩ := (ih b (fun s hs => hw s (List.mem_cons_of_mem _ hs)) hd.2).1 h4
          exact ⟨out, c, .definition a d⟩
    · cases h with
      | fault h3 =>
        cases h3 with
        | rhsFault h3 => exact (na_evalT _ _ h3).elim
        | lhsFault h3 h5 => cases h5
      | cons h3 h4 =>
        cases h3 with
        | definition h3 h5 =>
          cases h5
          obtain ⟨a, b⟩ := next h3
          exact .definition a ((ih b (fun s hs => hw s (List.mem_cons_of_mem _ hs)) hd.2).2 h4)
  | @assignment V a a' e e' ss ts h0 h1 h2 ih =>
    intro E σ ho hw hd
    have w := hw _ List.mem_cons_self
    have next : ∀ {v u}, evalT σ.env e' = .ok v → setA σ.env a' v = .ok u → ∃ t T old w', EvA D E a t old ∧ Ev D E e t v ∧ Put D E a v a'.root u ∧ E a'.root = some (T, w') ∧
        EnvOk V.types (E.set a'.root T u) (σ.set a'.root u).env := fun {v u} hv hu => by
      obtain ⟨⟨old, k1⟩, ⟨T, w', k2⟩, k3⟩ := put_complete ho h0 w.2.1 hd.1 w.1 hu
      exact ⟨_, T, old, w', k1, ev_complete ho h1 w.2.2 hd.2.1 hv, k3, k2,
        ho.update k2 (put_type ho k3 h0 w.2.1 w.1 (eval_hasType _ _ _ w.2.2 hv) k2)⟩
    refine ⟨fun {σ'} h => ?_, fun h => ?_⟩
    · cases h with
      | cons h3 h4 =>
        cases h3 with
        | definition h3 h5 =>
          obtain ⟨t, T, old, w', k1, k2, k3, k4, k5⟩ := next h3 h5
          obtain ⟨out, c, d⟩ := (ih k5 (fun s hs => hw s (List.mem_cons_of_mem _ hs)) hd.2.2).1 h4
          exact ⟨out, c, .assignment k1 k2 k3 k4 d⟩
    · cases h with
      | fault h3 =>
        cases h3 with
        | rhsFault h3 => exact (na_evalT _ _ h3).elim
        | lhsFault h3 h5 => exact (na_setA _ _ _ h5).elim
      | cons h3 h4 =>
        cases h3 with
        | definition h3 h5 =>
          obtain ⟨t, T, old, w', k1, k2, k3, k4, k5⟩ := next h3 h5
          exact .assignment k1 k2 k3 k4 ((ih k5 (fun s hs => hw s (List.mem_cons_of_mem _ hs)) hd.2.2).2 h4)
  | @assertion V e e' err ss ts h1 h2 ih =>
    intro E σ ho hw hd
    have w := hw _ List.mem_cons_self
    refine ⟨fun {σ'} h => ?_, fun h => ?_⟩
    · cases h with
      | cons h3 h4 =>
        cases h3 with
        | assertOk h3 =>
          obtain ⟨out, c, d⟩ := (ih ho (fun s hs => hw s (List.mem_cons_of_mem _ hs)) hd.2).1 h4
          exact ⟨out, c, .assertion (evCast w.1 (ev_complete ho h1 w.2 hd.1 h3)) d⟩
    · cases h with
      | fault h3 =>
        cases h3 with
        | assertFailed h3 => exact .here (evCast w.1 (ev_complete ho h1 w.2 hd.1 h3))
        | assertFault h3 => exact (na_evalT _ _ h3).elim
      | cons h3 h4 =>
        cases h3 with
        | assertOk h3 => exact .assertion (evCast w.1 (ev_complete ho h1 w.2 hd.1 h3)) ((ih ho (fun s hs => hw s (List.mem_cons_of_mem _ hs)) hd.2).2 h4)

theorem readsSS_free {V : SVars} {ss : List SStmt} {ts : List (TStmt (ZMod p))} (hr : ReadsSS D V ss ts) : ∀ s ∈ ts, s.OracleFree := by
  induction hr with
  | nil => simp
  | definition _ _ ih | assignment _ _ _ ih | assertion _ _ ih | ret _ _ ih =>
    intro s hs
    rcases List.mem_cons.1 hs with rfl | hs
    · trivial
    · exact ih s hs

/-- Typed statements have an outcome. -/
theorem exec_outcome {r : CType} {V : SVars} {ss : List SStmt} {ts : List (TStmt (ZMod p))} (hr : ReadsSS D V ss ts) : ∀ {σ : TState p}, (∀ s ∈ ts, s.Wt r) →
    ∃ o, ExecTs O σ ts o := by
  induction hr with
  | nil => exact fun _ => ⟨_, .nil⟩
  | @definition V x t m e e' ss ts h1 h2 ih =>
    intro σ hw
    cases h : evalT σ.env e' with
    | error f => exact ⟨_, .fault (.rhsFault h)⟩
    | ok v =>
      obtain ⟨o, ho⟩ := ih (σ := σ.set x v) fun s hs => hw s (List.mem_cons_of_mem _ hs)
      exact ⟨o, .cons (.definition h rfl) ho⟩
  | @assignment V a a' e e' ss ts h0 h1 h2 ih =>
    intro σ hw
    cases h : evalT σ.env e' with
    | error f => exact ⟨_, .fault (.rhsFault h)⟩
    | ok v =>
      cases h' : setA σ.env a' v with
      | error f => exact ⟨_, .fault (.lhsFault h h')⟩
      | ok u =>
        obtain ⟨o, ho⟩ := ih (σ := σ.set a'.root u) fun s hs => hw s (List.mem_cons_of_mem _ hs)
        exact ⟨o, .cons (.definition h h') ho⟩
  | @assertion V e e' err ss ts h1 h2 ih =>
    intro σ hw
    cases h : evalT σ.env e' with
    | error f => exact ⟨_, .fault (.assertFault h)⟩
    | ok v =>
      have w := hw _ List.mem_cons_self
      have := eval_hasType _ _ _ w.2 h
      rw [w.1] at this
      cases v with
      | bool b =>
        cases b
        · exact ⟨_, .fault (.assertFailed h)⟩
        · obtain ⟨o, ho⟩ := ih (σ := σ) fun s hs => hw s (List.mem_cons_of_mem _ hs)
          exact ⟨o, .cons (.assertOk h) ho⟩
      | _ => simp [HasType] at this
  | @ret V e e' ss ts h1 h2 ih =>
    intro σ hw
    cases h : evalT σ.env e' with
    | error f => exact ⟨_, .fault (.retFault h)⟩
    | ok v =>
      obtain ⟨o, ho⟩ := ih (σ := { σ with out := some v }) fun s hs => hw s (List.mem_cons_of_mem _ hs)
      exact ⟨o, .cons (.ret h) ho⟩

mutual
theorem wide_of_free : ∀ (s : ZStmt (ZMod p) Z), s.OracleFree → s.WideUnpack
  | .ret _, _ | .definition _ _, _ | .assertion _ _, _ | .log _, _ => by simp only [ZStmt.WideUnpack]
  | .multiDef _ _ _ _, h => by
    simp only [ZStmt.OracleFree] at h
    simp only [ZStmt.WideUnpack]
    exact fun h' => (h h').elim
  | .ifElse c t e, h => by
    simp only [ZStmt.OracleFree] at h
    exact ⟨wideL_of_free t h.1, wideL_of_free e h.2⟩
  | .assembly _, h => absurd h (by simp [ZStmt.OracleFree])
theorem wideL_of_free : ∀ (ss : List (ZStmt (ZMod p) Z)), ZStmt.OracleFreeL ss → ZStmt.WideUnpackL ss
  | [], _ => by simp only [ZStmt.WideUnpackL]
  | s :: ss, h => by
    simp only [ZStmt.OracleFreeL] at h
    exact ⟨wide_of_free s h.1, wideL_of_free ss h.2⟩
end

end Zok.Sem
