import Verif.Lemmas.ReducerCall

/-
The reducer: calls of embedded functions, statements, and the whole program.
-/

set_option linter.unusedSectionVars false
set_option linter.unusedSimpArgs false

namespace Zok.Typed
open Abi
variable {p : ℕ} [Fact p.Prime] {Z : Type} {O : Oracle p Z} {P : Program (ZMod p)} {C C' : Consts (ZMod p)}

/-! ### Calls of embedded functions -/

theorem flat_ok {L : ℕ} {t : CType} {key : ℕ} {ns : List ℕ} {ts : List CType} {f : Embed} {g : List ℕ} {args : List (TExpr (ZMod p))} {c : Inlined (ZMod p)} (hP : P key ns ts t = some (.flat f g))
    (hC : GoodC C) (hd : ∀ x, L < frameOf x → C x = none) (wa : WtL args) (va : ∀ x ∈ varsL args, Named L x) (ht : TypeOk t)
    (hi : (Callee.flat f g : Callee (ZMod p)).Wt (args.map TExpr.ty) t)
    (h : (do
      let c ← liftP (propStmt C (.embed (.ident (nid (L + 1) 0 0) t) f g args))
      let v ← liftP (propT c.1 (.ident (nid (L + 1) 0 0) t))
      .ok ⟨c.1.clear (L + 1), L + 1, c.2, v⟩ : Except RErr (Inlined (ZMod p))) = .ok c) :
    CallOk O P C L t c args (fun vs r => (∃ v, HasType t v ∧ EmbedRes O f g (primsL vs) (.ok (prims v)) ∧ r = .ok v) ∨ ∃ e, EmbedRes O f g (primsL vs) (.error e) ∧ r = .error e) := by
  obtain ⟨te, ta⟩ := hi
  obtain ⟨⟨C1, s1⟩, h1, h⟩ := rbind_ok h
  obtain ⟨v, h2, h⟩ := rbind_ok h
  cases h
  have h1 := liftP_ok h1
  have h2 := liftP_ok h2
  have w : ∀ t', (TStmt.embed (.ident (nid (L + 1) 0 0) t) f g args).Wt t' := fun t' => ⟨⟨t, te, rfl⟩, ht, wa⟩
  have m := fun t' => propStmt_mok hC (w t') ta h1
  obtain ⟨sh, -, sc⟩ := propStmt_shape hC (w t) ta h1
  have fid : frameOf (nid (L + 1) 0 0) = L + 1 := frameOf_nid _ _ _
  have cid : C (nid (L + 1) 0 0) = none := hd _ (by rw [fid]; omega)
  have as : ∀ s ∈ s1, ∀ x ∈ s.assigns, x = nid (L + 1) 0 0 := fun s hs x hx => by
    have := (sh s hs).assigns x hx
    simpa [TStmt.assigns, TAssignee.root] using this
  have con : ∀ x, x ≠ nid (L + 1) 0 0 → C1 x = C x := fun x hx => (m t).consts x fun s hs => by
    simp only [List.mem_singleton] at hs
    subst hs
    simpa [TStmt.assigns, TAssignee.root] using hx
  have nef : ∀ x, frameOf x ≠ L + 1 → x ≠ nid (L + 1) 0 0 := fun x hx hc => hx (by rw [hc, fid])
  have tv := propT_typed (m t).good _ _ h2 ht
  have step := propStmt_step (O := O) hC (w t) ta h1
  refine ⟨fun V V' fr t' hfr => ?_, fun x hx => ?_, fun s hs x hx => ?_, ⟨tv.1, tv.2.1, fun x hx => ?_⟩, fun env τ vs hE hn hv => ?_⟩
  · refine ⟨⟨fun x c hx => ?_, ?_, fun x hx => ?_⟩, ?_, (m t').wt, fun s hs x hx => .inr ?_, fun x hx hl => ?_, fun s hs x hx => ?_, fun seen hseen => ?_, fun s hs a f' g' args' he => ?_⟩
    · simp only [Consts.clear] at hx
      split at hx
      · cases hx
      · exact (m t).good x c hx
    · show fr ≤ L + 1; omega
    · change L + 1 < frameOf x at hx
      have hne : frameOf x ≠ L + 1 := by omega
      show C1.clear (L + 1) x = none
      simp only [Consts.clear, if_neg hne]
      rw [con x (nef x hne)]
      exact hd x (by omega)
    · show L ≤ L + 1; omega
    · rw [as s hs x hx, fid]
      show L < L + 1 ∧ L + 1 ≤ L + 1
      omega
    · change frameOf x ≤ L at hl
      have hne : frameOf x ≠ L + 1 := by omega
      show C1.clear (L + 1) x = C x
      simp only [Consts.clear, if_neg hne]
      exact con x (nef x hne)
    · have := (sh s hs).vars x hx
      simp only [TStmt.vars, TAssignee.vars, TAssignee.root, TAssignee.indices, varsL, List.mem_append, List.mem_singleton] at this
      rcases this with h | h
      · exact (va x h).mono (Nat.le_succ L)
      · subst h
        exact ⟨by rw [fid], fun _ => by rw [fid]; omega⟩
    · rcases sc with sc | ⟨a, f', g', args', he, sc⟩
      · exact freshCalls_pure sc
      · cases he
        obtain ⟨s', rfl⟩ := sc cid
        refine ⟨fun a f' g' args' he hc => ?_, trivial⟩
        have := as s' (by simp) a.root (by rw [he]; simp [TStmt.assigns])
        have h1 := hseen _ hc (by rw [this]; exact nameOf_nid _ _ _)
        rw [this, fid] at h1
        change L + 1 ≤ L at h1
        omega
    · obtain ⟨a0, args0, k1, -, k3⟩ := (sh s hs).call a f' g' args' he
      cases k1
      exact ⟨k3 (by simp [TAssignee.ConstantIndices, TAssignee.indices]), key, ns, ts, t, hP⟩
  · have hne : frameOf x ≠ L + 1 := by omega
    show C1.clear (L + 1) x = C x
    simp only [Consts.clear, if_neg hne]
    exact con x (nef x hne)
  · rw [as s hs x hx, fid]; omega
  · have := tv.2.2 x hx
    simp only [TExpr.vars, List.mem_singleton] at this
    subst this
    exact ⟨by rw [fid]; omega, by rw [fid], fun _ => by rw [fid]; omega⟩
  · have hQ : ∀ (v' : AVal (ZMod p)) (τ' : TState p), HasType t v' → RelC C1 ((⟨env, τ.out⟩ : TState p).set (nid (L + 1) 0 0) v') τ' → ∃ env', EnvRel (C1.clear (L + 1)) env' τ'.env ∧
        evalT env' v = .ok v' ∧ (∀ x, frameOf x ≤ L → env' x = env x) ∧ (∀ x, L + 1 < frameOf x → τ'.env x = none) ∧ τ'.out = τ.out := fun v' τ' hv' hR => by
      have hset : ∀ y, frameOf y ≠ L + 1 → ((⟨env, τ.out⟩ : TState p).set (nid (L + 1) 0 0) v').env y = env y := fun y hy => by simp only [TState.set, if_neg (nef y hy)]
      refine ⟨fun y => if frameOf y = L + 1 then τ'.env y else env y, ⟨fun y hy => ?_, fun y c hy => ?_⟩, propT_eval (m t).good ⟨fun y hy => ?_, hR.env.const⟩ (by exact ht) h2 ?_, fun x hx => ?_, fun x hx => ?_, hR.out⟩
      · split
        · rfl
        · rename_i h
          simp only [Consts.clear, if_neg h] at hy
          rw [← hset y h]
          exact hR.env.same y hy
      · have h : frameOf y ≠ L + 1 := fun hc => by simp only [Consts.clear, if_pos hc] at hy; cases hy
        simp only [Consts.clear, if_neg h, con y (nef y h)] at hy
        simp only [if_neg h]
        exact hE.const y c hy
      · split
        · exact hR.env.same y hy
        · rename_i h
          exact (hset y h).symm
      · simp only [evalT, TState.set, if_true, if_pos hv']
      · have h : frameOf x ≠ L + 1 := by omega
        simp only [if_neg h]
      · have h : frameOf x ≠ L + 1 := by omega
        have hc : C x = none := hd x (by omega)
        rw [hR.env.same x (by rw [con x (nef x h)]; exact hc), hset x h, ← hE.same x hc]
        exact hn x (by omega)
    have hR0 : RelC C ⟨env, τ.out⟩ τ := ⟨rfl, hE⟩
    have uo : P.UnpackOnly O → (TStmt.embed (.ident (nid (L + 1) 0 0) t) f g args).UnpackOnly O := fun hA => by
      simp only [TStmt.UnpackOnly]
      split
      · rename_i h
        cases h
        exact hA _ _ _ _ _ hP
      · trivial
    have us : P.UnpackSome O → (TStmt.embed (.ident (nid (L + 1) 0 0) t) f g args).UnpackSome O := fun hA => by
      simp only [TStmt.UnpackSome]
      split
      · rename_i h
        cases h
        exact hA _ _ _ _ _ hP
      · trivial
    have er : ∀ e, ExecT O ⟨env, τ.out⟩ (.embed (.ident (nid (L + 1) 0 0) t) f g args) (.error e) → EmbedRes O f g (primsL vs) (.error e) := fun e hx => by
      cases hx with
      | argsFault k => rw [show evalL env args = _ from k] at hv; cases hv
      | embedFault k1 k2 =>
        rw [show evalL env args = _ from k1] at hv
        cases hv
        exact k2
      | embedLhsFault k1 k2 k3 k4 k5 => simp only [setA] at k5; cases k5
    refine ⟨fun hA v' hv' => ?_, fun hB τ' hx => ?_, fun hB e hx => ?_, fun hA hx => ?_⟩
    · rcases hv' with ⟨v0, g1, g2, g3⟩ | ⟨e, -, g⟩
      · cases g3
        obtain ⟨τ', k1, k2⟩ := step.fwd (uo hA) ⟨env, τ.out⟩ τ _ hR0 (.embed (a := .ident _ _) hv rfl g1 g2 (show setA env (.ident (nid (L + 1) 0 0) t) _ = .ok _ from rfl))
        exact ⟨τ', k1, hQ _ _ g1 k2⟩
      · cases g
    · rcases step.bwd (us hB) ⟨env, τ.out⟩ τ τ' hR0 hx with ⟨σ', k1, k2⟩ | ⟨e, k1⟩
      · cases k1 with
        | embed k3 k4 k5 k6 k7 =>
          rw [show evalL env args = _ from k3] at hv
          cases hv
          simp only [TAssignee.ty, Option.some.injEq] at k4
          subst k4
          simp only [setA] at k7
          cases k7
          exact .inl ⟨_, .inl ⟨_, k5, k6, rfl⟩, hQ _ _ k5 k2⟩
      · exact .inr ⟨e, .inr ⟨e, er e k1, rfl⟩⟩
    · obtain ⟨e', k⟩ := step.err (us hB) ⟨env, τ.out⟩ τ e hR0 hx
      exact ⟨e', .inr ⟨e', er e' k, rfl⟩⟩
    · rcases hx with ⟨v0, -, -, g⟩ | ⟨e, g1, g2⟩
      · cases g
      · cases g2
        exact absurd rfl (na_embed g1)

theorem inlineCall_ok {run : ℕ → RState (ZMod p) → List (SStmt (ZMod p)) → Except RErr (RState (ZMod p) × List (TStmt (ZMod p)))} {k L : ℕ} {t : CType} {key : ℕ} {ns : List ℕ}
    {args : List (TExpr (ZMod p))} {c : Inlined (ZMod p)} (hP : P.Wt)
    (hrun : ∀ t fr st l st' ss, StOk fr st → WtSs t l → run fr st l = .ok (st', ss) → StepR O P t fr st st' ss (NoRetSs l) (fun σ => ExecSs O P σ l))
    (hC : GoodC C) (hd : ∀ x, L < frameOf x → C x = none) (wa : WtL args) (va : ∀ x ∈ varsL args, Named L x) (ht : TypeOk t)
    (h : inlineCall P run k C L t key ns args = .ok c) : CallOk O P C L t c args (CallX O P t key ns (args.map TExpr.ty)) := by
  simp only [inlineCall] at h
  split at h
  · cases h
  · rename_i i hi
    have := here_ok hrun hC hd wa va (hP _ _ _ _ _ hi) h
    refine ⟨this.emits, this.low, this.assigns, this.value, fun env τ vs hE hn hv => (this.sim env τ vs hE hn hv).imp (fun r => ?_) fun _ _ h => h⟩
    simp only [CallX, hi]
  · rename_i f g hi
    have := flat_ok (O := O) hi hC hd wa va ht (hP _ _ _ _ _ hi) h
    refine ⟨this.emits, this.low, this.assigns, this.value, fun env τ vs hE hn hv => (this.sim env τ vs hE hn hv).imp (fun r => ?_) fun _ _ h => h⟩
    simp only [CallX, hi]

/-! ### Statements -/

/-- The outcome of the assignment of `v`. -/
def SetX (σ : TState p) (a : TAssignee (ZMod p)) (v : AVal (ZMod p)) (r : Except Fault (TState p)) : Prop :=
  (∃ u, setA σ.env a v = .ok u ∧ r = .ok (σ.set a.root u)) ∨ ∃ e, setA σ.env a v = .error e ∧ r = .error e

theorem execS_call {σ : TState p} {a : TAssignee (ZMod p)} {t : CType} {key : ℕ} {gens args : List (TExpr (ZMod p))} (r : Except Fault (TState p)) :
    bindX (ExecCall O P σ t key gens args) (SetX σ a) r ↔ ExecS O P σ (.call a t key gens args) r := by
  constructor
  · rintro (⟨e, h, rfl⟩ | ⟨v, h, ⟨u, h1, rfl⟩ | ⟨e, h1, rfl⟩⟩)
    · exact .callFault h
    · exact .call h h1
    · exact .lhsFault h h1
  · intro h
    cases h with
    | call h h1 => exact .inr ⟨_, h, .inl ⟨_, h1, rfl⟩⟩
    | callFault h => exact .inl ⟨_, h, rfl⟩
    | lhsFault h h1 => exact .inr ⟨_, h, .inr ⟨_, h1, rfl⟩⟩

theorem litsU_eval {env : TEnv p} : ∀ {es : List (TExpr (ZMod p))} {ns : List ℕ} {vs : List (AVal (ZMod p))}, litsU es = .ok ns → (∀ e ∈ es, e.ty = .uint .b32) → evalL env es = .ok vs →
    vs = ns.map (AVal.uint .b32)
  | [], ns, vs, h, w, he => by
    simp only [litsU] at h
    cases h
    simp only [evalL] at he
    cases he
    rfl
  | e :: es, ns, vs, h, w, he => by
    simp only [litsU] at h
    split at h
    · rename_i n hn
      obtain ⟨ms, h1, h⟩ := rbind_ok h
      cases h
      obtain ⟨u, rfl⟩ := litU_some hn
      have := w _ (List.mem_cons_self ..)
      simp only [TExpr.ty] at this
      cases this
      simp only [evalL, evalT] at he
      obtain ⟨vs', h2, he⟩ := bind_ok (x := evalL env es) he
      cases he
      rw [litsU_eval h1 (fun e he => w e (by simp [he])) h2]
      rfl
    · cases h

theorem propL_sliceOk {V : Vers} {fr : ℕ} (hC : GoodC C) : ∀ {es es' : List (TExpr (ZMod p))}, WtL es → (∀ e ∈ es, SliceOk V fr e) → propL C es = .ok es' → ∀ e ∈ es', e.Wt ∧ SliceOk V fr e
  | [], es', w, hs, h => by simp only [propL] at h; cases h; simp
  | e :: es, es', w, hs, h => by
    simp only [propL] at h
    obtain ⟨a, h1, h⟩ := pbind_ok h
    obtain ⟨b, h2, h⟩ := pbind_ok h
    cases h
    intro x hx
    simp only [List.mem_cons] at hx
    rcases hx with rfl | hx
    · exact ⟨(propT_typed hC _ _ h1 w.1).2.1, SliceOk.prop (hs e (by simp)) hC w.1 h1⟩
    · exact propL_sliceOk hC w.2 (fun e he => hs e (by simp [he])) h2 x hx

theorem wtL_of {F : Type} : ∀ {es : List (TExpr F)}, (∀ e ∈ es, e.Wt) → WtL es
  | [], _ => trivial
  | e :: es, h => ⟨h e (by simp), wtL_of fun e he => h e (by simp [he])⟩

theorem call_ok (hP : P.Wt) {k fr : ℕ} {st st' : RState (ZMod p)} {rt t : CType} {a : TAssignee (ZMod p)} {key : ℕ} {gens args : List (TExpr (ZMod p))} {ss : List (TStmt (ZMod p))}
    (ih : ∀ t fr st s st' ss, StOk fr st → s.Wt t → reduceS P k fr st s = .ok (st', ss) → StepR O P t fr st st' ss s.NoRet (fun σ => ExecS O P σ s))
    (hst : StOk fr st) (hw : (SStmt.call a t key gens args).Wt rt) (h : reduceS P (k + 1) fr st (.call a t key gens args) = .ok (st', ss)) :
    StepR O P rt fr st st' ss (SStmt.call a t key gens args).NoRet (fun σ => ExecS O P σ (.call a t key gens args)) := by
  simp only [SStmt.Wt] at hw
  obtain ⟨w1, w2, w3, w4, w5⟩ := hw
  simp only [reduceS] at h
  obtain ⟨gens1, h1, h⟩ := rbind_ok h
  obtain ⟨args1, h2, h⟩ := rbind_ok h
  obtain ⟨a1, h3, h⟩ := rbind_ok h
  split at h
  · cases h
  rename_i hty
  obtain ⟨⟨C1, r2⟩, h4, h⟩ := rbind_ok h
  obtain ⟨pre, h5, h⟩ := rbind_ok h
  obtain ⟨gens2, h6, h⟩ := rbind_ok h
  obtain ⟨args2, h7, h⟩ := rbind_ok h
  obtain ⟨gs, h8, h⟩ := rbind_ok h
  obtain ⟨c, h9, h⟩ := rbind_ok h
  obtain ⟨a2, h10, h⟩ := rbind_ok h
  obtain ⟨⟨C2, q⟩, h11, h⟩ := rbind_ok h
  cases h
  have h1 := liftP_ok h1
  have h2 := liftP_ok h2
  have h3 := liftP_ok h3
  have h4 := liftP_ok h4
  have hty : a1.ty = some t := by by_contra hc; exact hty hc
  have hC := hst.good
  -- the assignee
  have wa := (ssaA_wt st.vers fr a).mpr w2
  obtain ⟨wa1, -, hr1, -⟩ := propA_typed hC h3 wa
  obtain ⟨rfl, pre0, hr2, hpre, hp0⟩ := invalidate_inv (O := O) h4
  subst hr2
  simp only [List.dropLast_concat] at h5
  have hpre0 : pre = pre0 := by
    rcases hp0 with rfl | ⟨c0, k1, k2, rfl⟩
    · simp only [sliceStmts] at h5
      cases h5
      rfl
    · simp only [sliceStmts, sliceStmt, sliceA] at h5
      obtain ⟨s', g1, h5⟩ := rbind_ok h5
      obtain ⟨l', g2, h5⟩ := rbind_ok h5
      cases g2
      cases h5
      obtain ⟨e', g4, g3⟩ := rbind_ok g1
      cases g3
      rw [sliceT_id _ _ g4 (canon_noSlice (hC _ _ k1).canon)]
  subst hpre0
  have froot : frameOf a1.root = fr ∧ nameOf a1.root ≠ 0 := by
    rw [hr1]
    exact ssaA_vars st.vers fr a _ (by simp [TAssignee.vars])
  have hC1 : GoodC (st.consts.remove a1.root) := goodC_remove hC
  have rem : ∀ x, x ≠ a1.root → st.consts.remove a1.root x = st.consts x := fun x hx => by simp only [Consts.remove, if_neg hx]
  have hd1 : ∀ x, st.latest < frameOf x → st.consts.remove a1.root x = none := fun x hx => by
    simp only [Consts.remove]
    split
    · rfl
    · exact hst.dom x hx
  -- generic arguments and arguments
  have gw : WtL (renL (ssaName st.vers fr) gens) := (wt_renL _ _).mpr (wtL_of fun e he => (w3 e he).2)
  have aw : WtL (renL (ssaName st.vers fr) args) := (wt_renL _ _).mpr (wtL_of w4)
  have so : ∀ l : List (TExpr (ZMod p)), (∀ e ∈ l, e ∈ gens ++ args) → ∀ e ∈ renL (ssaName st.vers fr) l, SliceOk (ssaAssignee st.vers fr a).1 fr e := fun l hl e he => by
    rw [renL_map] at he
    obtain ⟨e0, he0, rfl⟩ := List.mem_map.mp he
    exact ssa_sliceOk fun x t ha => w5 x t ha e0 (hl e0 he0)
  have gs1 := propL_sliceOk hC gw (so gens fun e he => by simp [he]) h1
  have as1 := propL_sliceOk hC aw (so args fun e he => by simp [he]) h2
  obtain ⟨gt, gw2, -, gv⟩ := reduceExprs_ok hC1 gs1 h6
  obtain ⟨at', aw2, avs, av⟩ := reduceExprs_ok hC1 as1 h7
  have aty : args2.map TExpr.ty = args.map TExpr.ty := by rw [at', (propL_typed hC _ _ h2 aw).1, renL_tys]
  have gty : ∀ e ∈ gens2, e.ty = .uint .b32 := fun e he => by
    have : e.ty ∈ gens.map TExpr.ty := by
      rw [← renL_tys (ssaName st.vers fr) gens, ← (propL_typed hC _ _ h1 gw).1, ← gt]
      exact List.mem_map_of_mem he
    obtain ⟨e0, k1, k2⟩ := List.mem_map.mp this
    rw [← k2]
    exact (w3 e0 k1).1
  have va2 : ∀ x ∈ varsL args2, Named st.latest x := fun x hx => by
    have := (propL_typed hC _ _ h2 aw).2.2 x (avs x hx)
    rw [vars_renL] at this
    obtain ⟨y, -, rfl⟩ := List.mem_map.mp this
    exact named_ssa hst.frame y
  have ok := inlineCall_ok (O := O) hP (fun t fr st l st' ss hst hw h => reduceMany_ok (fun st s st' ss hs hw h => ih t fr st s st' ss hs hw h) hst hw h) hC1 hd1 aw2 va2
    (assignee_typeOk w2 w1) h9
  -- the definition
  have hc3 : GoodC c.consts := (ok.emits st.vers st.vers fr rt hst.frame).ok.good
  have Lc : st.latest ≤ c.latest := (ok.emits st.vers st.vers fr rt hst.frame).le
  have ka := sliceA_ok hc3 h10 wa1 fun x hx => by
    obtain ⟨y, -, hy⟩ := ssaA_indices st.vers fr a x (propA_vars hC h3 wa x hx)
    exact hy
  have dw : ∀ s ∈ pre ++ [.definition a2 c.value], s.Wt rt ∧ s.ArgsTyped := fun s hs => by
    rcases List.mem_append.mp hs with hs | hs
    · rcases hp0 with rfl | ⟨c0, k1, k2, rfl⟩
      · simp at hs
      · simp only [List.mem_singleton] at hs
        subst hs
        exact ⟨⟨by rw [TAssignee.ty, k2], rootTy_ok wa1, (hC _ _ k1).wt⟩, trivial⟩
    · simp only [List.mem_singleton] at hs
      subst hs
      exact ⟨⟨by rw [ka.ty, hty, ok.value.1], ka.wt, ok.value.2.1⟩, trivial⟩
  have dp : ∀ s ∈ pre ++ [.definition a2 c.value], s.Pure := fun s hs => by
    rcases List.mem_append.mp hs with hs | hs
    · exact hpre.pure s hs
    · simp only [List.mem_singleton] at hs; subst hs; trivial
  have das : ∀ s ∈ pre ++ [.definition a2 c.value], ∀ x ∈ s.assigns, x = a1.root := fun s hs x hx => by
    rcases List.mem_append.mp hs with hs | hs
    · rcases hp0 with rfl | ⟨c0, k1, k2, rfl⟩
      · simp at hs
      · simp only [List.mem_singleton] at hs
        subst hs
        simpa [TStmt.assigns, TAssignee.root] using hx
    · simp only [List.mem_singleton] at hs
      subst hs
      simpa [TStmt.assigns, ka.root] using hx
  have dvs : ∀ s ∈ pre ++ [.definition a2 c.value], ∀ x ∈ s.vars, Named c.latest x := fun s hs x hx => by
    have hn : Named c.latest a1.root := ⟨by rw [froot.1]; exact hst.frame.trans Lc, fun h => absurd h froot.2⟩
    rcases List.mem_append.mp hs with hs | hs
    · rcases hp0 with rfl | ⟨c0, k1, k2, rfl⟩
      · simp at hs
      · simp only [List.mem_singleton] at hs
        subst hs
        simp only [TStmt.vars, canon_vars (hC _ _ k1).canon, TAssignee.vars, TAssignee.root, TAssignee.indices, varsL, List.nil_append, List.mem_singleton] at hx
        subst hx
        exact hn
    · simp only [List.mem_singleton] at hs
      subst hs
      simp only [TStmt.vars, TAssignee.vars, List.mem_append, List.mem_cons, ka.root] at hx
      rcases hx with hx | hx | hx
      · exact (ok.value.2.2 x hx).2
      · subst hx; exact hn
      · obtain ⟨y, rfl, -⟩ := ssaA_indices st.vers fr a x (propA_vars hC h3 wa x (ka.vars x hx))
        exact named_ssa (hst.frame.trans Lc) y
  have m := propMany_mok hc3 dw h11
  have mp := m.pure dp
  have mas : ∀ s ∈ q, ∀ x ∈ s.assigns, x = a1.root := fun s hs x hx => by
    obtain ⟨s0, k1, k2⟩ := m.shape s hs
    exact das s0 k1 x (k2.assigns x hx)
  have mcon : ∀ x, x ≠ a1.root → C2 x = c.consts x := fun x hx => m.consts x fun s hs hc => hx (das s hs x hc)
  have em1 : Emits P rt fr st ⟨(ssaAssignee st.vers fr a).1, c.consts, c.latest⟩ c.stmts := by
    have e := ok.emits st.vers (ssaAssignee st.vers fr a).1 fr rt hst.frame
    refine ⟨e.ok, e.le, e.wt, e.assigns, fun x hx hl => ?_, e.vars, e.fresh, e.call⟩
    show c.consts x = st.consts x
    rw [ok.low x hl]
    exact rem x fun hc => hx (by rw [hc]; exact froot.1)
  have em2 : Emits P rt fr ⟨(ssaAssignee st.vers fr a).1, c.consts, c.latest⟩ ⟨(ssaAssignee st.vers fr a).1, C2, c.latest⟩ q := by
    refine ⟨⟨m.good, hst.frame.trans Lc, fun x hx => ?_⟩, le_refl _, m.wt, fun s hs x hx => .inl ?_, fun x hx _ => ?_, fun s hs x hx => ?_, fun _ _ => freshCalls_pure mp, fun s hs => ?_⟩
    · change c.latest < frameOf x at hx
      show C2 x = none
      rw [mcon x fun hc => by rw [hc, froot.1] at hx; have := hst.frame; omega]
      exact em1.ok.dom x hx
    · rw [mas s hs x hx]; exact froot
    · exact mcon x fun hc => hx (by rw [hc]; exact froot.1)
    · obtain ⟨s0, k1, k2⟩ := m.shape s hs
      exact dvs s0 k1 x (k2.vars x hx)
    · rintro a f g args rfl
      exact (mp _ hs).elim
  refine ⟨em1.append em2, fun K hK σ τ hR => ?_⟩
  obtain ⟨⟨ρ, hE, hN⟩, hnone, hout⟩ := hR
  have he : (fun x => ρ (ssaName st.vers fr x)) = σ.env := funext hN
  -- the state in which the constant of the assigned variable is forgotten
  have ra : EnvRel st.consts ρ (fun y => if y = a1.root then τ.env y else ρ y) := by
    refine ⟨fun y hy => ?_, hE.const⟩
    split
    · exact hE.same y hy
    · rfl
  have rb : EnvRel (st.consts.remove a1.root) (fun y => if y = a1.root then τ.env y else ρ y) τ.env := by
    refine ⟨fun y hy => ?_, fun y c hy => ?_⟩
    · split
      · rfl
      · rename_i hn
        exact hE.same y (by rw [← rem y hn]; exact hy)
    · have hn : y ≠ a1.root := fun hc => by simp only [Consts.remove, if_pos hc] at hy; cases hy
      simp only [if_neg hn]
      exact hE.const y c (by rw [← rem y hn]; exact hy)
  refine (RSim.seq (X := ExecCall O P σ t key gens args) (Y := SetX σ a) (Q := fun v τ' => ∃ env', EnvRel c.consts env' τ'.env ∧ evalT env' c.value = .ok v ∧
      (∀ x, frameOf x ≤ st.latest → env' x = if x = a1.root then τ.env x else ρ x) ∧ (∀ x, c.latest < frameOf x → τ'.env x = none) ∧ τ'.out = τ.out)
      (R := SRel K fr ⟨(ssaAssignee st.vers fr a).1, C2, c.latest⟩) ?_ ?_).imp execS_call fun _ _ h => h
  · cases hg : evalL σ.env gens with
    | error e =>
      refine .fault (.gensFault hg) (fun r hr => ?_) fun hc => na_evalL σ.env gens (by rw [hg, hc])
      cases hr with
      | here k | hereFault k | flat k | flatFault k | argsFault k => rw [hg] at k; cases k
      | gensFault k => rw [hg] at k; cases k; rfl
    | ok gvs =>
      cases hv : evalL σ.env args with
      | error e =>
        refine .fault (.argsFault hg hv) (fun r hr => ?_) fun hc => na_evalL σ.env args (by rw [hv, hc])
        cases hr with
        | here _ k | hereFault _ k | flat _ k | flatFault _ k => rw [hv] at k; cases k
        | gensFault k => rw [hg] at k; cases k
        | argsFault _ k => rw [hv] at k; cases k; rfl
      | ok vs =>
        have g1 := propL_eval hC ra gw h1 (by rw [eval_renL, he]; exact hg)
        have g2 := gv _ _ _ rb.self g1
        have g3 := litsU_eval h8 gty g2
        subst g3
        have v1 := propL_eval hC ra aw h2 (by rw [eval_renL, he]; exact hv)
        have v2 := av _ _ _ rb.self v1
        refine (ok.sim _ τ vs rb hnone v2).imp (fun r => ?_) fun _ _ h => h
        rw [aty]
        exact execCall_iff hg hv r
  · rintro v τ1 - hx1 ⟨env', k1, k2, k3, k4, k5⟩
    refine .of_pure mp ?_ (fun σ' hσ => ?_) (fun hσ => ?_)
    · cases hs : setA σ.env a v with
      | error e => exact ⟨_, .inr ⟨e, hs, rfl⟩⟩
      | ok u => exact ⟨_, .inl ⟨u, hs, rfl⟩⟩
    · rcases hσ with ⟨u, hu, hσ⟩ | ⟨e, -, hσ⟩
      swap
      · cases hσ
      cases hσ
      -- the environment in which the assigned variable has its value
      have e4 : ∀ x, frameOf x ≤ st.latest → (if x = a1.root then ρ x else env' x) = ρ x := fun x hx => by
        split
        · rfl
        · rename_i hn
          rw [k3 x hx, if_neg hn]
      have rc : c.consts a1.root = none := by
        rw [ok.low a1.root (by rw [froot.1]; exact hst.frame)]
        simp only [Consts.remove, if_true]
      have E4 : EnvRel c.consts (fun x => if x = a1.root then ρ x else env' x) (fun x => if x = a1.root then ρ x else env' x) := by
        refine ⟨fun _ _ => rfl, fun y c' hy => ?_⟩
        have hn : y ≠ a1.root := fun hc => by rw [hc, rc] at hy; cases hy
        simp only [if_neg hn]
        exact k1.const y c' hy
      have E0 : EnvRel st.consts (fun x => if x = a1.root then ρ x else env' x) (fun x => if x = a1.root then ρ x else env' x) := by
        refine ⟨fun _ _ => rfl, fun y c' hy => ?_⟩
        have hl : frameOf y ≤ st.latest := by
          by_contra hc
          rw [hst.dom y (by omega)] at hy
          cases hy
        simp only [e4 y hl]
        exact hE.const y c' hy
      have s1 : setA ρ (ssaAssignee st.vers fr a).2 v = .ok u := by rw [ssaA_set hN]; exact hu
      have s2 : setA (fun x => if x = a1.root then ρ x else env' x) (ssaAssignee st.vers fr a).2 v = .ok u := by
        rw [← s1]
        refine (setA_congr fun x hx => ?_).2 v
        exact e4 x (by rw [(ssaA_vars st.vers fr a x hx).1]; exact hst.frame)
      have s3 := propA_set hC E0 h3 wa rfl s2
      have s4 := ka.set _ _ _ E4 s3
      have v4 : evalT (fun x => if x = a1.root then ρ x else env' x) c.value = .ok v := by
        rw [← k2]
        refine evalT_congr _ fun x hx => ?_
        have hn : x ≠ a1.root := fun hc => by
          have := (ok.value.2.2 x hx).1
          rw [hc, froot.1] at this
          have := hst.frame
          omega
        simp only [if_neg hn]
      have run : ExecTs O ⟨env', τ1.out⟩ (pre ++ [.definition a2 c.value]) (.ok ⟨fun x => if x = a1.root then some u else if x = a1.root then ρ x else env' x, τ1.out⟩) := by
        have r1 : ExecTs O ⟨env', τ1.out⟩ pre (.ok ⟨fun x => if x = a1.root then ρ x else env' x, τ1.out⟩) := by
          have hroot : frameOf a1.root ≤ st.latest := by rw [froot.1]; exact hst.frame
          rcases hp0 with rfl | ⟨c0, g1, g2, rfl⟩
          · have : (fun x => if x = a1.root then ρ x else env' x) = env' := by
              funext x
              by_cases hx : x = a1.root
              · rw [if_pos hx, hx, k3 a1.root hroot, if_pos rfl]
                -- no constant
                by_contra hne
                have hcn : st.consts a1.root = none := by
                  simp only [invalidate] at h4
                  obtain ⟨o, _, h4⟩ := pbind_ok h4
                  split at h4
                  · split at h4
                    · simp at h4
                    · cases h4
                  · assumption
                exact hne (hE.same _ hcn).symm
              · rw [if_neg hx]
            rw [this]
            exact .nil
          · obtain ⟨w, g3, g4⟩ := hE.const _ _ g1
            refine .one ?_
            have : (fun x => if x = a1.root then ρ x else env' x) = fun x => if x = a1.root then some w else env' x := by
              funext x
              split
              · rename_i hx; rw [hx, g3]
              · rfl
            rw [this]
            exact .definition (a := .ident a1.root a1.rootTy) (g4 env') (by simp only [setA])
        refine r1.append (.one ?_)
        have := ExecT.definition (O := O) (σ := ⟨fun x => if x = a1.root then ρ x else env' x, τ1.out⟩) v4 s4
        rw [ka.root] at this
        exact this
      obtain ⟨τ2, z1, z2⟩ := propMany_fwd hc3 dw dp h11 ⟨env', τ1.out⟩ τ1 _ ⟨rfl, k1⟩ run
      refine ⟨τ2, z1, ⟨_, z2.env, fun x => ?_⟩, fun x hx => ?_, ?_⟩
      · have := ssaA_names hN a u x
        refine Eq.trans ?_ this
        rw [← hr1]
        show (if ssaName (ssaAssignee st.vers fr a).1 fr x = a1.root then some u else _) = if ssaName (ssaAssignee st.vers fr a).1 fr x = a1.root then some u else _
        split
        · rfl
        · rename_i hn
          have e5 := e4 (ssaName (ssaAssignee st.vers fr a).1 fr x) ((frameOf_ssa _ _ _).trans_le hst.frame)
          rw [if_neg hn] at e5
          exact e5
      · change c.latest < frameOf x at hx
        rw [z1.frame fun s hs hc => by rw [mas s hs x hc, froot.1] at hx; have := hst.frame; omega]
        exact k4 x hx
      · rw [z2.out]
        show K σ.out τ1.out
        rw [k5]
        exact hout
    · rcases hσ with ⟨u, -, hσ⟩ | ⟨e, hu, hσ⟩
      · cases hσ
      · cases hσ
        exact absurd hu (na_setA _ _ _)

theorem loop_ok {k fr : ℕ} {st st' : RState (ZMod p)} {t : CType} {x : TId} {lo hi : TExpr (ZMod p)} {body : List (SStmt (ZMod p))} {ss : List (TStmt (ZMod p))}
    (ih : ∀ t fr st s st' ss, StOk fr st → s.Wt t → reduceS P k fr st s = .ok (st', ss) → StepR O P t fr st st' ss s.NoRet (fun σ => ExecS O P σ s))
    (hst : StOk fr st) (hw : (SStmt.for_ x lo hi body).Wt t) (h : reduceS P (k + 1) fr st (.for_ x lo hi body) = .ok (st', ss)) :
    StepR O P t fr st st' ss (SStmt.for_ x lo hi body).NoRet (fun σ => ExecS O P σ (.for_ x lo hi body)) := by
  simp only [SStmt.Wt] at hw
  obtain ⟨w1, w2, w3, w4, w5⟩ := hw
  simp only [reduceS] at h
  obtain ⟨lo', h1, h3⟩ := rbind_ok h
  obtain ⟨hi', h2, h4⟩ := rbind_ok h3
  clear h h3
  have all : ∀ e : TExpr (ZMod p), SliceOk st.vers fr (e.ren (ssaName st.vers fr)) := fun e => .inr fun x hx => by
    rw [vars_renT] at hx
    obtain ⟨y, -, rfl⟩ := List.mem_map.mp hx
    exact cur_ssa _ fr y
  obtain ⟨t1, v1⟩ := reduceExpr_ok hst.good ((wt_renT _ _).mpr w2) (all lo) h1
  obtain ⟨t2, v2⟩ := reduceExpr_ok hst.good ((wt_renT _ _).mpr w4) (all hi) h2
  split at h4
  · rename_i l u hl hu
    split at h4
    · cases h4
    rename_i hlt
    obtain ⟨wl, rfl⟩ := litU_some hl
    obtain ⟨wu, rfl⟩ := litU_some hu
    have e1 := t1.1
    have e2 := t2.1
    rw [ty_ren, w1] at e1
    rw [ty_ren, w3] at e2
    simp only [TExpr.ty] at e1 e2
    cases e1
    cases e2
    have hb : u < 2 ^ 32 := t2.2.1
    obtain ⟨em, k⟩ := reduceMany_ok (fun st s st' ss hs hw h => ih t fr st s st' ss hs hw h) hst (unroll_wt (x := x) w5 (by omega : l + (u - l) ≤ 2 ^ 32)) h4
    refine ⟨em, fun K hK σ τ hR => ?_⟩
    obtain ⟨⟨ρ, hE, hN⟩, -, -⟩ := id hR
    have he : (fun x => ρ (ssaName st.vers fr x)) = σ.env := funext hN
    cases hlo : evalT σ.env lo with
    | error e =>
      refine .fault (.loFault hlo) (fun r hr => ?_) fun hc => na_evalT σ.env lo (by rw [hlo, hc])
      cases hr with
      | loop k | hiFault k => rw [hlo] at k; cases k
      | loFault k => rw [hlo] at k; cases k; rfl
    | ok vl =>
      cases hhi : evalT σ.env hi with
      | error e =>
        refine .fault (.hiFault hlo hhi) (fun r hr => ?_) fun hc => na_evalT σ.env hi (by rw [hhi, hc])
        cases hr with
        | loop _ k => rw [hhi] at k; cases k
        | loFault k => rw [hlo] at k; cases k
        | hiFault _ k => rw [hhi] at k; cases k; rfl
      | ok vh =>
        have g1 := v1 ρ τ.env vl hE (by rw [eval_renT, he]; exact hlo)
        have g2 := v2 ρ τ.env vh hE (by rw [eval_renT, he]; exact hhi)
        simp only [evalT] at g1 g2
        cases g1
        cases g2
        refine (k K (hK.imp id fun h => unroll_noRet h) σ τ hR).imp (fun r => ?_) fun _ _ h => h
        show ExecSs O P σ _ r ↔ ExecS O P σ _ r
        rw [unroll_exec]
        constructor
        · exact fun h => .loop hlo hhi h
        · intro h
          cases h with
          | loop k1 k2 k3 =>
            rw [hlo] at k1
            rw [hhi] at k2
            cases k1
            cases k2
            exact k3
          | loFault k => rw [hlo] at k; cases k
          | hiFault _ k => rw [hhi] at k; cases k
  · cases h4

/-- **The reducer on statements.** -/
theorem reduceS_ok (hP : P.Wt) : ∀ (k : ℕ) (t : CType) (fr : ℕ) (st : RState (ZMod p)) (s : SStmt (ZMod p)) (st' : RState (ZMod p)) (ss : List (TStmt (ZMod p))), StOk fr st → s.Wt t →
    reduceS P k fr st s = .ok (st', ss) → StepR O P t fr st st' ss s.NoRet (fun σ => ExecS O P σ s)
  | 0, t, fr, st, s, st', ss, hst, hw, h => by simp only [reduceS] at h; cases h
  | k + 1, t, fr, st, .simple s, st', ss, hst, hw, h => by
    simp only [reduceS] at h
    refine ⟨(simple_emits hst hw h).1, fun K hK σ τ hR => (simple_sim hst hw h hK hR).imp (fun r => ⟨.simple, fun h => ?_⟩) fun _ _ h => h⟩
    cases h with
    | simple h => exact h
  | k + 1, t, fr, st, .call a u key gens args, st', ss, hst, hw, h => call_ok hP (reduceS_ok hP k) hst hw h
  | k + 1, t, fr, st, .for_ x lo hi body, st', ss, hst, hw, h => loop_ok (reduceS_ok hP k) hst hw h

/-! ### The main function -/

theorem ssaParams_ok : ∀ {qs : List TParam} {V : Vers} {ρ : TEnv p} {σ τ : TState p} {vs : List (AVal (ZMod p))}, vs.length = qs.length → τ.env = ρ → Names V 0 ρ σ.env →
    Names (ssaParams V qs).1 0 (τ.setAll ((ssaParams V qs).2.map TParam.id) vs).env (σ.setAll (qs.map TParam.id) vs).env
  | [], V, ρ, σ, τ, vs, _, h, hN => by
    subst h
    simp only [ssaParams, List.map_nil, TState.setAll]
    exact hN
  | q :: qs, V, ρ, σ, τ, [], hl, h, hN => by simp at hl
  | q :: qs, V, ρ, σ, τ, v :: vs, hl, h, hN => by
    subst h
    simp only [ssaParams, List.map_cons, TState.setAll]
    exact ssaParams_ok (by simpa using hl) rfl (ssaA_names hN (.ident q.id q.ty : TAssignee (ZMod p)) v)

theorem ssaParams_ids : ∀ {qs : List TParam} {V : Vers}, ∀ q ∈ (ssaParams V qs).2, frameOf q.id = 0 ∧ nameOf q.id ≠ 0
  | [], V, q, h => by simp [ssaParams] at h
  | q0 :: qs, V, q, h => by
    simp only [ssaParams, List.mem_cons] at h
    rcases h with rfl | h
    · exact ⟨frameOf_nid _ _ _, by rw [nameOf_nid]; omega⟩
    · exact ssaParams_ids q h

theorem ssaParams_ty : ∀ {qs : List TParam} {V : Vers}, (ssaParams V qs).2.map TParam.ty = qs.map TParam.ty
  | [], V => rfl
  | q :: qs, V => by simp only [ssaParams, List.map_cons, ssaParams_ty]

theorem ssaParams_priv : ∀ {qs : List TParam} {V : Vers}, (ssaParams V qs).2.map TParam.priv = qs.map TParam.priv
  | [], V => rfl
  | q :: qs, V => by simp only [ssaParams, List.map_cons, ssaParams_priv]

theorem setAll_none {x : TId} : ∀ {xs : List TId} {vs : List (AVal (ZMod p))} {σ : TState p}, x ∉ xs → (σ.setAll xs vs).env x = σ.env x
  | [], vs, σ, _ => by cases vs <;> rfl
  | y :: xs, [], σ, _ => rfl
  | y :: xs, v :: vs, σ, h => by
    simp only [TState.setAll]
    rw [setAll_none (by simp_all)]
    simp only [TState.set]
    rw [if_neg (by simp_all)]

theorem setAll_out' : ∀ {xs : List TId} {vs : List (AVal (ZMod p))} {σ : TState p}, (σ.setAll xs vs).out = σ.out
  | [], vs, σ => by cases vs <;> rfl
  | y :: xs, [], σ => rfl
  | y :: xs, v :: vs, σ => by
    simp only [TState.setAll]
    rw [setAll_out']
    rfl

/-- **The reducer on programs.** -/
theorem reduce_ok {k : ℕ} {f : SFun (ZMod p)} {g : TFun (ZMod p)} (hP : P.Wt) (hf : f.Wt) (h : reduce P k f = .ok g) :
    g.params = (ssaParams (fun _ => none) f.params).2 ∧ g.ret = f.ret ∧ (∃ st', Emits P f.ret 0 ⟨(ssaParams (fun _ => none) f.params).1, fun _ => none, 0⟩ st' g.body) ∧
    ∀ args, HasTypeL (f.params.map TParam.ty) args →
      RSim O (P.UnpackOnly O) (P.UnpackSome O) (initT g args) (ExecSs O P (initS f args) f.body) g.body fun σ τ => τ.out = σ.out := by
  simp only [reduce] at h
  obtain ⟨⟨st', ss⟩, h1, h⟩ := rbind_ok h
  cases h
  have h0 : StOk 0 (⟨(ssaParams (fun _ => none) f.params).1, fun _ => none, 0⟩ : RState (ZMod p)) := ⟨fun _ _ h => (by cases h), le_refl _, fun _ _ => rfl⟩
  obtain ⟨em, sim⟩ := reduceMany_ok (O := O) (fun st s st' ss => reduceS_ok hP k f.ret 0 st s st' ss) h0 hf.body h1
  refine ⟨rfl, rfl, ⟨st', em⟩, fun args ha => ?_⟩
  have hl : args.length = f.params.length := by simpa using (hasTypeL_length ha).symm
  refine (sim (fun a b => b = a) (.inl fun _ => rfl) (initS f args) (initT ⟨(ssaParams (fun _ => none) f.params).2, ss, f.ret⟩ args) ?_).imp (fun r => Iff.rfl) fun σ τ h => h.out
  refine ⟨⟨_, ⟨fun _ _ => rfl, fun y c hy => by cases hy⟩, ?_⟩, fun x hx => ?_, ?_⟩
  · exact ssaParams_ok (ρ := fun _ => none) hl rfl fun _ => rfl
  · simp only [initT]
    rw [setAll_none]
    simp only [List.mem_map, not_exists, not_and]
    rintro q hq rfl
    rw [(ssaParams_ids q hq).1] at hx
    exact absurd hx (lt_irrefl 0)
  · simp only [initT, initS, setAll_out']

end Zok.Typed
