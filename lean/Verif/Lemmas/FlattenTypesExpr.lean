import Verif.Lemmas.FlattenTypes

namespace Zok.Typed
open Abi
variable {p : ℕ} [Fact p.Prime]

/-! ### The flattened expressions evaluate to the components of the value -/

/-- The variables of ZIR hold the components of the variables. -/
def Rel (nm : SId → ZId) (env : TEnv p) (zenv : ZEnv p) : Prop :=
  ∀ x v, env x = some v → ∀ q ∈ leaves v (.basic x), zenv (nm q.1) = some q.2

variable {nm : SId → ZId} {zenv : ZEnv p} {env : TEnv p}

theorem identExpr_ev {q : SId × ZVal p} (h : zenv (nm q.1) = some q.2) : evalZ zenv (identExpr nm (leafVar q)) = .ok q.2 := by
  obtain ⟨id, v⟩ := q
  cases v with
  | field x => simp only [leafVar, zty, identExpr, evalZ, evalF, h, bind, Except.bind]
  | bool x => simp only [leafVar, zty, identExpr, evalZ, evalB, h, bind, Except.bind]
  | uint w x => simp only [leafVar, zty, identExpr, evalZ, evalU, evalUI, h, bind, Except.bind, if_true]; rfl

theorem idents_ev {l : List (SId × ZVal p)} (h : ∀ q ∈ l, zenv (nm q.1) = some q.2) :
    Ev zenv ((l.map leafVar).map (identExpr nm)) (l.map Prod.snd) := by
  induction l with
  | nil => exact .nil
  | cons q l ih => exact .cons (identExpr_ev (h q List.mem_cons_self)) (ih fun r hr => h r (List.mem_cons_of_mem _ hr))

theorem FOp.zir_ev {op : FOp} {a b : FExpr (ZMod p)} {x y z : ZMod p} (ha : evalF zenv a = .ok x) (hb : evalF zenv b = .ok y) (h : op.eval x y = .ok z) :
    evalF zenv (op.zir a b) = .ok z := by
  cases op <;> simp only [FOp.eval] at h <;> simp only [FOp.zir, evalF, ha, hb, bind, Except.bind] <;> first | exact h | cases h

theorem UOp.zir_ev {op : UOp} {a b : UExpr (ZMod p)} {w x y z : ℕ} (ha : evalU zenv a = .ok x) (hb : evalU zenv b = .ok y) (h : op.eval w x y = .ok z) :
    evalUI zenv w (op.zir a b) = .ok z := by
  cases op <;> simp only [UOp.eval] at h <;> simp only [UOp.zir, evalUI, ha, hb, bind, Except.bind] <;> first | exact h | cases h

theorem bind_some {α β : Type _} {x : Option α} {f : α → Option β} {b : β} (h : x.bind f = some b) : ∃ a, x = some a ∧ f a = some b :=
  Option.bind_eq_some_iff.1 h

/-- A constant is flattened to a constant. -/
theorem flat_const {e : TExpr (ZMod p)} {a : FExpr (ZMod p)} (hc : e.isConst = true) (h : (flat nm e).bind popF = some a) : a.isConst = true := by
  unfold TExpr.isConst at hc
  split at hc
  · simp only [flat, Option.bind_some, popF, List.getLast?_singleton, Option.some.injEq] at h
    subst h; rfl
  · simp only [flat] at h
    split at h
    · rename_i x y hx hy
      simp only [Option.bind_some, popF, List.getLast?_singleton, Option.some.injEq] at h hy
      simp only [popU, List.getLast?_singleton, Option.some.injEq] at hy
      subst h hy
      rfl
    · simp at h
  · cases hc

theorem cmpDefined_mono {c d : Bool} {a b : ZMod p} (hcd : c = true → d = true) (h : cmpDefined p c a b) : cmpDefined p d a b := by
  unfold cmpDefined at *
  rcases h with h | h
  · exact .inl (hcd h)
  · exact .inr h

theorem primsL_replicate (k : ℕ) (v : AVal (ZMod p)) : primsL (List.replicate k v) = (List.replicate k (prims v)).flatten := by
  induction k with
  | zero => rfl
  | succ k ih => simp [List.replicate_succ, primsL, ih]

theorem ev_replicate {l : List (ZExpr (ZMod p))} {xs : List (ZVal p)} (h : Ev zenv l xs) (k : ℕ) :
    Ev zenv (List.replicate k l).flatten (List.replicate k xs).flatten := by
  induction k with
  | zero => exact .nil
  | succ k ih => simp only [List.replicate_succ, List.flatten_cons]; exact h.append ih

theorem primsM_zip (ks : List Str) (vs : List (AVal (ZMod p))) (h : vs.length ≤ ks.length) : primsM (ks.zip vs) = primsL vs := by
  rw [primsM_eq, List.map_snd_zip h]

theorem hasTypeL_length : ∀ {ts : List CType} {vs : List (AVal (ZMod p))}, HasTypeL ts vs → ts.length = vs.length
  | [], [], _ => rfl
  | [], _ :: _, h => by simp [HasTypeL] at h
  | _ :: _, [], h => by simp [HasTypeL] at h
  | _ :: ts, _ :: vs, h => by simp only [HasTypeL] at h; simp [hasTypeL_length h.2]

mutual
theorem flat_ev (hr : Rel nm env zenv) : ∀ (e : TExpr (ZMod p)) (zs : List (ZExpr (ZMod p))) (v : AVal (ZMod p)), e.Wt → flat nm e = some zs →
    evalT env e = .ok v → Ev zenv zs (prims v)
  | .fval n, zs, v, hw, hf, h => by
    simp only [evalT] at h; cases h
    simp only [flat] at hf; cases hf
    exact ev_single.2 (by simp only [evalZ, evalF]; rfl)
  | .bval n, zs, v, hw, hf, h => by
    simp only [evalT] at h; cases h
    simp only [flat] at hf; cases hf
    exact ev_single.2 (by simp only [evalZ, evalB]; rfl)
  | .uval w n, zs, v, hw, hf, h => by
    simp only [evalT] at h; cases h
    simp only [flat] at hf; cases hf
    exact ev_single.2 (by simp only [evalZ, evalU, evalUI]; rfl)
  | .ident x t, zs, v, hw, hf, h => by
    simp only [evalT] at h
    split at h
    · rename_i u hu
      split at h
      · rename_i ht
        cases h
        simp only [flat, Option.map_eq_some_iff] at hf
        obtain ⟨l, hl, rfl⟩ := hf
        rw [flatIds_leaves t v _ l ht hl, ← leaves_snd v (.basic x)]
        exact idents_ev (hr x v hu)
      · cases h
    · cases h
  | .fbin op l r, zs, v, hw, hf, h => by
    simp only [evalT] at h
    obtain ⟨a, ha, h⟩ := Prop'.exc_bind_ok h
    obtain ⟨b, hb, h⟩ := Prop'.exc_bind_ok h
    obtain ⟨c, hc, h⟩ := Prop'.exc_bind_ok h
    obtain ⟨u, hu, ha⟩ := bind_ok ha
    obtain ⟨u', hu', hb⟩ := bind_ok hb
    cases h
    simp only [TExpr.Wt] at hw
    simp only [flat] at hf
    split at hf
    · rename_i x y hx hy
      cases hf
      obtain ⟨lx, hlx, hx⟩ := bind_some hx
      obtain ⟨ly, hly, hy⟩ := bind_some hy
      have i1 := flat_ev hr l lx u hw.2.2.1 hlx hu
      have i2 := flat_ev hr r ly u' hw.2.2.2 hly hu'
      rw [asField_ok ha] at i1
      rw [asField_ok hb] at i2
      exact ev_single.2 (evalZ_field.2 (FOp.zir_ev (popF_ev i1 hx) (popF_ev i2 hy) hc))
    · cases hf
  | .fubin op l r, zs, v, hw, hf, h => by
    simp only [evalT] at h
    obtain ⟨a, ha, h1⟩ := Prop'.exc_bind_ok h
    obtain ⟨b, hb, h2⟩ := Prop'.exc_bind_ok h1
    clear h h1
    obtain ⟨u, hu, ha⟩ := bind_ok ha
    obtain ⟨u', hu', hb⟩ := bind_ok hb
    simp only [TExpr.Wt] at hw
    simp only [flat] at hf
    split at hf
    · rename_i x y hx hy
      cases hf
      obtain ⟨lx, hlx, hx⟩ := bind_some hx
      obtain ⟨ly, hly, hy⟩ := bind_some hy
      have i1 := flat_ev hr l lx u hw.2.2.1 hlx hu
      have i2 := flat_ev hr r ly u' hw.2.2.2 hly hu'
      rw [asField_ok ha] at i1
      rw [asUint_ok hb] at i2
      split at h2
      · rename_i hop
        subst hop
        cases h2
        refine ev_single.2 (evalZ_field.2 ?_)
        simp only [FUOp.zir, evalF, popF_ev i1 hx, (popU_ev i2 hy).2, bind, Except.bind]
      · cases h2
    · cases hf
  | .fneg e, zs, v, hw, hf, h => by
    simp only [evalT] at h
    obtain ⟨a, ha, h⟩ := Prop'.exc_bind_ok h
    obtain ⟨u, hu, ha⟩ := bind_ok ha
    cases h
    simp only [TExpr.Wt] at hw
    simp only [flat] at hf
    split at hf
    · rename_i x hx
      cases hf
      obtain ⟨lx, hlx, hx⟩ := bind_some hx
      have i1 := flat_ev hr e lx u hw.2 hlx hu
      rw [asField_ok ha] at i1
      refine ev_single.2 (evalZ_field.2 ?_)
      simp only [evalF, popF_ev i1 hx, bind, Except.bind, zero_sub]
    · cases hf
  | .fpos e, zs, v, hw, hf, h => by
    simp only [evalT] at h
    obtain ⟨a, ha, h⟩ := Prop'.exc_bind_ok h
    obtain ⟨u, hu, ha⟩ := bind_ok ha
    cases h
    simp only [TExpr.Wt] at hw
    simp only [flat] at hf
    split at hf
    · rename_i x hx
      cases hf
      obtain ⟨lx, hlx, hx⟩ := bind_some hx
      have i1 := flat_ev hr e lx u hw.2 hlx hu
      rw [asField_ok ha] at i1
      exact ev_single.2 (evalZ_field.2 (popF_ev i1 hx))
    · cases hf
  | .ubin w op l r, zs, v, hw, hf, h => by
    simp only [evalT] at h
    obtain ⟨a, ha, h⟩ := Prop'.exc_bind_ok h
    obtain ⟨b, hb, h⟩ := Prop'.exc_bind_ok h
    obtain ⟨c, hc, h⟩ := Prop'.exc_bind_ok h
    obtain ⟨u, hu, ha⟩ := bind_ok ha
    obtain ⟨u', hu', hb⟩ := bind_ok hb
    cases h
    simp only [TExpr.Wt] at hw
    simp only [flat] at hf
    split at hf
    · rename_i x y hx hy
      cases hf
      obtain ⟨lx, hlx, hx⟩ := bind_some hx
      obtain ⟨ly, hly, hy⟩ := bind_some hy
      have i1 := flat_ev hr l lx u hw.2.2.1 hlx hu
      have i2 := flat_ev hr r ly u' hw.2.2.2 hly hu'
      rw [asUint_ok ha] at i1
      rw [asUint_ok hb] at i2
      refine ev_single.2 (evalZ_uint.2 ⟨rfl, ?_⟩)
      simp only [evalU]
      exact UOp.zir_ev (popU_ev i1 hx).2 (popU_ev i2 hy).2 hc
    · cases hf
  | .unot w e, zs, v, hw, hf, h => by
    simp only [evalT] at h
    obtain ⟨a, ha, h⟩ := Prop'.exc_bind_ok h
    obtain ⟨u, hu, ha⟩ := bind_ok ha
    cases h
    simp only [TExpr.Wt] at hw
    simp only [flat] at hf
    split at hf
    · rename_i x hx
      cases hf
      obtain ⟨lx, hlx, hx⟩ := bind_some hx
      have i1 := flat_ev hr e lx u hw.2 hlx hu
      rw [asUint_ok ha] at i1
      refine ev_single.2 (evalZ_uint.2 ⟨rfl, ?_⟩)
      simp only [evalU, evalUI, (popU_ev i1 hx).2, bind, Except.bind]
    · cases hf
  | .uneg w e, zs, v, hw, hf, h => by
    simp only [evalT] at h
    obtain ⟨a, ha, h⟩ := Prop'.exc_bind_ok h
    obtain ⟨u, hu, ha⟩ := bind_ok ha
    cases h
    simp only [TExpr.Wt] at hw
    simp only [flat] at hf
    split at hf
    · rename_i x hx
      cases hf
      obtain ⟨lx, hlx, hx⟩ := bind_some hx
      have i1 := flat_ev hr e lx u hw.2 hlx hu
      rw [asUint_ok ha] at i1
      refine ev_single.2 (evalZ_uint.2 ⟨rfl, ?_⟩)
      simp only [evalU, evalUI, (popU_ev i1 hx).2, bind, Except.bind, Nat.zero_add]
    · cases hf
  | .upos w e, zs, v, hw, hf, h => by
    simp only [evalT] at h
    obtain ⟨a, ha, h⟩ := Prop'.exc_bind_ok h
    obtain ⟨u, hu, ha⟩ := bind_ok ha
    cases h
    simp only [TExpr.Wt] at hw
    simp only [flat] at hf
    split at hf
    · rename_i x hx
      cases hf
      obtain ⟨lx, hlx, hx⟩ := bind_some hx
      have i1 := flat_ev hr e lx u hw.2 hlx hu
      rw [asUint_ok ha] at i1
      obtain ⟨j1, j2⟩ := popU_ev i1 hx
      refine ev_single.2 (evalZ_uint.2 ⟨rfl, ?_⟩)
      cases x with
      | mk w' info inner =>
        simp only [UExpr.width] at j1
        subst j1
        simp only [evalU] at j2 ⊢
        exact j2
    · cases hf
  | .bbin op l r, zs, v, hw, hf, h => by
    simp only [evalT] at h
    obtain ⟨a, ha, h⟩ := Prop'.exc_bind_ok h
    obtain ⟨b, hb, h⟩ := Prop'.exc_bind_ok h
    obtain ⟨u, hu, ha⟩ := bind_ok ha
    obtain ⟨u', hu', hb⟩ := bind_ok hb
    cases h
    simp only [TExpr.Wt] at hw
    simp only [flat] at hf
    split at hf
    · rename_i x y hx hy
      cases hf
      obtain ⟨lx, hlx, hx⟩ := bind_some hx
      obtain ⟨ly, hly, hy⟩ := bind_some hy
      have i1 := flat_ev hr l lx u hw.2.2.1 hlx hu
      have i2 := flat_ev hr r ly u' hw.2.2.2 hly hu'
      rw [asBool_ok ha] at i1
      rw [asBool_ok hb] at i2
      refine ev_single.2 (evalZ_bool.2 ?_)
      cases op <;> simp only [evalB, popB_ev i1 hx, popB_ev i2 hy, bind, Except.bind]
    · cases hf
  | .bnot e, zs, v, hw, hf, h => by
    simp only [evalT] at h
    obtain ⟨a, ha, h⟩ := Prop'.exc_bind_ok h
    obtain ⟨u, hu, ha⟩ := bind_ok ha
    cases h
    simp only [TExpr.Wt] at hw
    simp only [flat] at hf
    split at hf
    · rename_i x hx
      cases hf
      obtain ⟨lx, hlx, hx⟩ := bind_some hx
      have i1 := flat_ev hr e lx u hw.2 hlx hu
      rw [asBool_ok ha] at i1
      refine ev_single.2 (evalZ_bool.2 ?_)
      simp only [evalB, popB_ev i1 hx, bind, Except.bind]
    · cases hf
  | .fcmp op l r, zs, v, hw, hf, h => by
    simp only [evalT] at h
    obtain ⟨a, ha, h⟩ := Prop'.exc_bind_ok h
    obtain ⟨b, hb, h⟩ := Prop'.exc_bind_ok h
    obtain ⟨u, hu, ha⟩ := bind_ok ha
    obtain ⟨u', hu', hb⟩ := bind_ok hb
    simp only [TExpr.Wt] at hw
    simp only [flat] at hf
    split at hf
    · rename_i x y hx hy
      cases hf
      have cst : (l.isConst || r.isConst) = true → (x.isConst || y.isConst) = true := by
        intro hc
        rw [Bool.or_eq_true] at hc ⊢
        rcases hc with hc | hc
        · exact .inl (flat_const hc hx)
        · exact .inr (flat_const hc hy)
      obtain ⟨lx, hlx, hx⟩ := bind_some hx
      obtain ⟨ly, hly, hy⟩ := bind_some hy
      have i1 := flat_ev hr l lx u hw.2.2.1 hlx hu
      have i2 := flat_ev hr r ly u' hw.2.2.2 hly hu'
      rw [asField_ok ha] at i1
      rw [asField_ok hb] at i2
      split at h
      · rename_i hd
        cases h
        have hd' := cmpDefined_mono cst hd
        refine ev_single.2 (evalZ_bool.2 ?_)
        cases op <;> simp only [evalB, popF_ev i1 hx, popF_ev i2 hy, bind, Except.bind, hd', if_true]
      · cases h
    · cases hf
  | .ucmp op l r, zs, v, hw, hf, h => by
    simp only [evalT] at h
    obtain ⟨a, ha, h⟩ := Prop'.exc_bind_ok h
    obtain ⟨b, hb, h⟩ := Prop'.exc_bind_ok h
    obtain ⟨u, hu, ha⟩ := bind_ok ha
    obtain ⟨u', hu', hb⟩ := bind_ok hb
    cases h
    simp only [TExpr.Wt] at hw
    obtain ⟨⟨w, w1, w2⟩, w3, w4⟩ := hw
    rw [w1] at ha hb
    simp only [asUintOf] at ha hb
    simp only [flat] at hf
    split at hf
    · rename_i x y hx hy
      cases hf
      obtain ⟨lx, hlx, hx⟩ := bind_some hx
      obtain ⟨ly, hly, hy⟩ := bind_some hy
      have i1 := flat_ev hr l lx u w3 hlx hu
      have i2 := flat_ev hr r ly u' w4 hly hu'
      rw [asUint_ok ha] at i1
      rw [asUint_ok hb] at i2
      refine ev_single.2 (evalZ_bool.2 ?_)
      cases op <;> simp only [evalB, (popU_ev i1 hx).2, (popU_ev i2 hy).2, bind, Except.bind]
    · cases hf
  | .eq l r, zs, v, hw, hf, h => by
    simp only [evalT] at h
    obtain ⟨a, ha, h⟩ := Prop'.exc_bind_ok h
    obtain ⟨b, hb, h⟩ := Prop'.exc_bind_ok h
    cases h
    simp only [TExpr.Wt] at hw
    obtain ⟨w1, w2, w3, w4⟩ := hw
    have t1 := eval_hasType env l a w3 ha
    have t2 := eval_hasType env r b w4 hb
    rw [← w1] at t2
    simp only [flat] at hf
    split at hf
    · rename_i x y hx hy
      split at hf
      · rw [Option.map_eq_some_iff] at hf
        obtain ⟨e, he, rfl⟩ := hf
        have i1 := flat_ev hr l x a w3 hx ha
        have i2 := flat_ev hr r y b w4 hy hb
        refine ev_single.2 (evalZ_bool.2 ?_)
        rw [conjTree_ev _ i1 i2 (by rw [prims_ty _ _ t1, prims_ty _ _ t2]) he]
        have : prims a = prims b ↔ a = b := ⟨prims_inj _ a b t1 t2, fun h => by rw [h]⟩
        exact congrArg Except.ok (decide_eq_decide.2 this)
      · cases hf
    · cases hf
  | .cond t c a b, zs, v, hw, hf, h => by
    simp only [evalT] at h
    obtain ⟨k, hk, h⟩ := Prop'.exc_bind_ok h
    obtain ⟨x, hx, h⟩ := Prop'.exc_bind_ok h
    obtain ⟨y, hy, h⟩ := Prop'.exc_bind_ok h
    obtain ⟨u, hu, hk⟩ := bind_ok hk
    cases h
    simp only [TExpr.Wt] at hw
    obtain ⟨w1, w2, w3, w4, w5, w6⟩ := hw
    have t1 := eval_hasType env a x w5 hx
    have t2 := eval_hasType env b y w6 hy
    rw [w2] at t1
    rw [w3] at t2
    simp only [flat] at hf
    split at hf
    · rename_i c' as bs hc has hbs
      obtain ⟨lc, hlc, hc⟩ := bind_some hc
      have i0 := flat_ev hr c lc u w4 hlc hu
      have i1 := flat_ev hr a as x w5 has hx
      have i2 := flat_ev hr b bs y w6 hbs hy
      rw [asBool_ok hk] at i0
      have := condZs_ev (popB_ev i0 hc) i1 i2 (by rw [prims_ty _ _ t1, prims_ty _ _ t2]) hf
      cases k <;> exact this
    · cases hf
  | .select t a i, zs, v, hw, hf, h => by
    simp only [evalT] at h
    obtain ⟨vs, hvs, h⟩ := Prop'.exc_bind_ok h
    obtain ⟨k, hk, h⟩ := Prop'.exc_bind_ok h
    obtain ⟨u, hu, hvs⟩ := bind_ok hvs
    obtain ⟨u', hu', hk⟩ := bind_ok hk
    simp only [TExpr.Wt] at hw
    obtain ⟨⟨n, hn⟩, h2, h3, h4⟩ := hw
    have t1 := eval_hasType env a u h3 hu
    rw [asArray_ok hvs, hn] at t1
    simp only [HasType] at t1
    simp only [flat, hn] at hf
    split at hf
    · rename_i c arr i' hc harr hi
      obtain ⟨li, hli, hi⟩ := bind_some hi
      have i0 := flat_ev hr a arr u h3 harr hu
      have i1 := flat_ev hr i li u' h4 hli hu'
      rw [asArray_ok hvs] at i0
      rw [asUint_ok hk] at i1
      exact selectZs_ev hc t1.2 i0 (popU_ev i1 hi).2 (selectVal_ok h) hf
    · cases hf
  | .member t s m, zs, v, hw, hf, h => by
    simp only [evalT] at h
    obtain ⟨u, hu, h⟩ := Prop'.exc_bind_ok h
    simp only [TExpr.Wt] at hw
    obtain ⟨⟨ms, hn, hm⟩, h3⟩ := hw
    have t1 := eval_hasType env s u h3 hu
    cases u with
    | struct fs =>
      simp only at h
      split at h
      · rename_i v' hv'
        cases h
        rw [hn] at t1
        simp only [HasType] at t1
        simp only [flat, hn] at hf
        split at hf
        · rename_i pre t' l hsp hl
          have i0 := flat_ev hr s l _ h3 hl hu
          obtain ⟨ws, us, e1, e2, e3⟩ := memberSplit_spec ms fs m pre t' v t1 hsp hv'
          rw [prims, primsM_eq, e3, primsL_append, primsL] at i0
          exact component_ev e1 e2 i0 hf
        · cases hf
      · cases h
    | _ => simp at h
  | .element t e i, zs, v, hw, hf, h => by
    simp only [evalT] at h
    obtain ⟨u, hu, h⟩ := Prop'.exc_bind_ok h
    simp only [TExpr.Wt] at hw
    obtain ⟨⟨ts, hn, hm⟩, h3⟩ := hw
    have t1 := eval_hasType env e u h3 hu
    cases u with
    | tuple fs =>
      simp only at h
      split at h
      · rename_i v' hv'
        cases h
        rw [hn] at t1
        simp only [HasType] at t1
        simp only [flat, hn] at hf
        split at hf
        · rename_i t' l hsp hl
          have i0 := flat_ev hr e l _ h3 hl hu
          obtain ⟨ws, us, e1, e2, e3⟩ := elementSplit_spec ts fs i t' v t1 hsp hv'
          rw [prims, e3, primsL_append, primsL] at i0
          exact component_ev e1 e2 i0 hf
        · cases hf
      · cases h
    | _ => simp at h
  | .array t n es, zs, v, hw, hf, h => by
    simp only [evalT] at h
    obtain ⟨vs, hvs, h⟩ := Prop'.exc_bind_ok h
    simp only [TExpr.Wt] at hw
    cases h
    simp only [flat] at hf
    split at hf
    · rename_i l c hl hc
      split at hf
      · cases hf
        exact flatS_ev hr t es zs vs hw.2.2 hl hvs
      · cases hf
    · cases hf
  | .slice t n a lo hi, zs, v, hw, hf, h0 => by
    simp only [evalT] at h0
    obtain ⟨vs, hvs, h1⟩ := Prop'.exc_bind_ok h0
    obtain ⟨l, hl, h2⟩ := Prop'.exc_bind_ok h1
    obtain ⟨k, hk, h3⟩ := Prop'.exc_bind_ok h2
    clear h0 h1 h2
    obtain ⟨u, hu, hvs'⟩ := bind_ok hvs
    simp only [TExpr.Wt] at hw
    obtain ⟨⟨n', l', h', e1, e2, e3, e4, e5, e6⟩, h4⟩ := hw
    have t1 := eval_hasType env a u h4 hu
    rw [asArray_ok hvs', e1] at t1
    rw [e2] at hl
    rw [e3] at hk
    simp only [evalT, Except.bind, asUint, if_true] at hl hk
    cases hl; cases hk
    simp only [HasType] at t1
    split at h3
    · cases h3
      simp only [flat, e2, e3] at hf
      split at hf
      · rename_i la _ _ lo' _ _ hi' c hla hlo hhi hc
        simp only [Option.bind_some, popU, List.getLast?_singleton, Option.some.injEq] at hlo hhi
        cases hlo; cases hhi
        split at hf
        · have i0 := flat_ev hr a la u h4 hla hu
          rw [asArray_ok hvs', prims] at i0
          have := i0.slice hf
          rwa [primsL_slice vs _ _ (fun v hv => prims_length (t1.2 v hv) hc)] at this
        · cases hf
      · cases hf
    · cases h3
  | .repeat_ t n e count, zs, v, hw, hf, h => by
    simp only [evalT] at h
    obtain ⟨x, hx, h⟩ := Prop'.exc_bind_ok h
    obtain ⟨k, hk, h⟩ := Prop'.exc_bind_ok h
    simp only [TExpr.Wt] at hw
    obtain ⟨⟨_, w1⟩, w2, w3⟩ := hw
    rw [w2] at hk
    simp only [evalT, Except.bind, asUint, if_true] at hk
    cases hk
    cases h
    simp only [flat, w2] at hf
    split at hf
    · rename_i l _ _ c hl hc
      simp only [Option.bind_some, popU, List.getLast?_singleton, Option.some.injEq] at hc
      cases hc
      cases hf
      rw [prims, primsL_replicate]
      exact ev_replicate (flat_ev hr e l x w3 hl hx) _
    · cases hf
  | .struct ms es, zs, v, hw, hf, h => by
    simp only [evalT] at h
    obtain ⟨vs, hvs, h⟩ := Prop'.exc_bind_ok h
    simp only [TExpr.Wt] at hw
    have := evalL_hasType env es vs hw.2.2 hvs
    rw [hw.2.1] at this
    have := hasTypeL_length this
    cases h
    simp only [flat] at hf
    rw [prims, primsM_zip _ _ (by simpa using Nat.le_of_eq this.symm)]
    exact flatL_ev hr es zs vs hw.2.2 hf hvs
  | .tuple ts es, zs, v, hw, hf, h => by
    simp only [evalT] at h
    obtain ⟨vs, hvs, h⟩ := Prop'.exc_bind_ok h
    simp only [TExpr.Wt] at hw
    cases h
    simp only [flat] at hf
    rw [prims]
    exact flatL_ev hr es zs vs hw.2 hf hvs
  | .removed t, zs, v, hw, hf, h => by simp [TExpr.Wt] at hw
theorem flatL_ev (hr : Rel nm env zenv) : ∀ (es : List (TExpr (ZMod p))) (zs : List (ZExpr (ZMod p))) (vs : List (AVal (ZMod p))), WtL es →
    flatL nm es = some zs → evalL env es = .ok vs → Ev zenv zs (primsL vs)
  | [], zs, vs, _, hf, h => by
    simp only [evalL] at h; cases h
    simp only [flatL] at hf; cases hf
    exact .nil
  | e :: es, zs, vs, hw, hf, h => by
    simp only [evalL] at h
    obtain ⟨x, hx, h⟩ := Prop'.exc_bind_ok h
    obtain ⟨xs, hxs, h⟩ := Prop'.exc_bind_ok h
    simp only [WtL] at hw
    cases h
    simp only [flatL] at hf
    split at hf
    · rename_i as bs ha hb
      cases hf
      exact (flat_ev hr e as x hw.1 ha hx).append (flatL_ev hr es bs xs hw.2 hb hxs)
    · cases hf
theorem flatS_ev (hr : Rel nm env zenv) (t : CType) : ∀ (es : List (TSpread (ZMod p))) (zs : List (ZExpr (ZMod p))) (vs : List (AVal (ZMod p))), WtS t es →
    flatS nm es = some zs → evalS env es = .ok vs → Ev zenv zs (primsL vs)
  | [], zs, vs, _, hf, h => by
    simp only [evalS] at h; cases h
    simp only [flatS] at hf; cases hf
    exact .nil
  | .expr e :: es, zs, vs, hw, hf, h => by
    simp only [evalS] at h
    obtain ⟨x, hx, h⟩ := Prop'.exc_bind_ok h
    obtain ⟨xs, hxs, h⟩ := Prop'.exc_bind_ok h
    simp only [WtS] at hw
    cases h
    simp only [flatS] at hf
    split at hf
    · rename_i as bs ha hb
      cases hf
      exact (flat_ev hr e as x hw.1.2 ha hx).append (flatS_ev hr t es bs xs hw.2 hb hxs)
    · cases hf
  | .spread e :: es, zs, vs, hw, hf, h => by
    simp only [evalS] at h
    obtain ⟨x, hx, h⟩ := Prop'.exc_bind_ok h
    obtain ⟨xs, hxs, h⟩ := Prop'.exc_bind_ok h
    obtain ⟨u, hu, hx⟩ := bind_ok hx
    simp only [WtS] at hw
    cases h
    simp only [flatS] at hf
    split at hf
    · rename_i as bs ha hb
      cases hf
      have i1 := flat_ev hr e as u hw.1 ha hu
      rw [asArray_ok hx, prims] at i1
      rw [primsL_append]
      exact i1.append (flatS_ev hr t es bs xs hw.2 hb hxs)
    · cases hf
end

end Zok.Typed
