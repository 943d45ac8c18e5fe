import Verif.Lemmas.VariableWrite
import Verif.Spec.VariableWrite

set_option linter.unusedSectionVars false

namespace Zok.Typed
open Abi
variable {p : ℕ} {Z : Type} [Fact p.Prime] {O : Oracle p Z} {env : TEnv p}

/-! ### Types of accesses -/

/-- The indices of the accesses are well-typed. -/
def AccWt (as : List (Access (ZMod p))) : Prop := ∀ i, .select i ∈ as → i.ty = .uint .b32 ∧ i.Wt

theorem accTy_append : ∀ {as bs : List (Access (ZMod p))} {t : CType}, accTy (as ++ bs) t = (accTy as t).bind (accTy bs)
  | [], bs, t => by simp [accTy]
  | .select i :: as, bs, t => by
    cases t <;> simp only [List.cons_append, accTy, Option.bind_none]
    exact accTy_append
  | .member m :: as, bs, t => by
    cases t <;> simp only [List.cons_append, accTy, Option.bind_none]
    rename_i ms
    cases ms.lookup m with
    | none => rfl
    | some t => exact accTy_append
  | .element m :: as, bs, t => by
    cases t <;> simp only [List.cons_append, accTy, Option.bind_none]
    rename_i ms
    cases ms[m]? with
    | none => rfl
    | some t => exact accTy_append

theorem linear_ty : ∀ (a : TAssignee (ZMod p)), accTy (linear a).2 (linear a).1.2 = a.ty
  | .ident x t => rfl
  | .select a i => by
    simp only [linear, accTy_append, linear_ty a, TAssignee.ty]
    cases a.ty with
    | none => rfl
    | some t => cases t <;> rfl
  | .member a m => by
    simp only [linear, accTy_append, linear_ty a, TAssignee.ty]
    cases a.ty with
    | none => rfl
    | some t =>
      cases t <;> simp only [Option.bind_some, accTy]
      exact Option.bind_fun_some _
  | .element a m => by
    simp only [linear, accTy_append, linear_ty a, TAssignee.ty]
    cases a.ty with
    | none => rfl
    | some t =>
      cases t <;> simp only [Option.bind_some, accTy]
      exact Option.bind_fun_some _

theorem linear_root : ∀ (a : TAssignee (ZMod p)), (linear a).1 = (a.root, a.rootTy)
  | .ident x t => rfl
  | .select a i => linear_root a
  | .member a m => linear_root a
  | .element a m => linear_root a

theorem linear_wt : ∀ {a : TAssignee (ZMod p)}, a.Wt → AccWt (linear a).2 ∧ TypeOk a.rootTy
  | .ident x t, h => ⟨fun i hi => by simp [linear] at hi, h⟩
  | .select a i, h => by
    obtain ⟨_, h1, h2, h3⟩ := h
    obtain ⟨h4, h5⟩ := linear_wt h3
    refine ⟨fun j hj => ?_, h5⟩
    simp only [linear, List.mem_append, List.mem_singleton] at hj
    rcases hj with hj | hj
    · exact h4 j hj
    · cases hj; exact ⟨h1, h2⟩
  | .member a i, h => by
    obtain ⟨_, h3⟩ := h
    obtain ⟨h4, h5⟩ := linear_wt h3
    refine ⟨fun j hj => ?_, h5⟩
    simp only [linear, List.mem_append, List.mem_singleton] at hj
    rcases hj with hj | hj
    · exact h4 j hj
    · cases hj
  | .element a i, h => by
    obtain ⟨_, h3⟩ := h
    obtain ⟨h4, h5⟩ := linear_wt h3
    refine ⟨fun j hj => ?_, h5⟩
    simp only [linear, List.mem_append, List.mem_singleton] at hj
    rcases hj with hj | hj
    · exact h4 j hj
    · cases hj

theorem linear_indices : ∀ {a : TAssignee (ZMod p)} {i : TExpr (ZMod p)}, .select i ∈ (linear a).2 ↔ i ∈ a.indices
  | .ident x t, i => by simp [linear, TAssignee.indices]
  | .select a j, i => by simp [linear, TAssignee.indices, linear_indices]
  | .member a j, i => by simp [linear, TAssignee.indices, linear_indices]
  | .element a j, i => by simp [linear, TAssignee.indices, linear_indices]

/-! ### Range checks -/

theorem eval_lt {head : TExpr (ZMod p)} {n k : ℕ} (ht : head.ty = .uint .b32) (hk : evalT env head = .ok (.uint .b32 k)) :
    evalT env (.ucmp .lt head (.uval .b32 n)) = .ok (.bool (decide (k < n))) := by
  simp only [evalT, hk, ht, bind, Except.bind, asUintOf, asUint, if_true]

theorem zipIdx_mem {ts : List CType} {x : CType × ℕ} (h : x ∈ ts.zipIdx) : ts[x.2]? = some x.1 := by
  have := List.mem_zipIdx_iff_getElem?.1 (show (x.1, x.2) ∈ ts.zipIdx from h)
  exact this

/-- Each range check is an assertion that compares an index. -/
theorem rangeChecks_shape : ∀ {as : List (Access (ZMod p))} {t : CType} {s : TStmt (ZMod p)}, s ∈ rangeChecks as t →
    ∃ i n, .select i ∈ as ∧ s = .assertion (.ucmp .lt i (.uval .b32 n)) .selectRangeCheck
  | [], t, s, h => by simp [rangeChecks] at h
  | .select i :: as, t, s, h => by
    cases t with
    | array n t =>
      simp only [rangeChecks, List.mem_cons, List.mem_flatMap] at h
      rcases h with h | ⟨_, _, h⟩
      · exact ⟨i, n, by simp, h⟩
      · obtain ⟨j, m, h1, h2⟩ := rangeChecks_shape h
        exact ⟨j, m, by simp [h1], h2⟩
    | _ => simp [rangeChecks] at h
  | .member i :: as, t, s, h => by
    cases t with
    | struct ms =>
      simp only [rangeChecks, List.mem_flatMap] at h
      obtain ⟨kt, h1, h⟩ := h
      split at h
      · obtain ⟨j, m, h1, h2⟩ := rangeChecks_shape h
        exact ⟨j, m, by simp [h1], h2⟩
      · cases h
    | _ => simp [rangeChecks] at h
  | .element i :: as, t, s, h => by
    cases t with
    | tuple ms =>
      simp only [rangeChecks, List.mem_flatMap] at h
      obtain ⟨kt, h1, h⟩ := h
      split at h
      · obtain ⟨j, m, h1, h2⟩ := rangeChecks_shape h
        exact ⟨j, m, by simp [h1], h2⟩
      · cases h
    | _ => simp [rangeChecks] at h

/-- The condition of an assertion holds. -/
def CheckHolds (env : TEnv p) (s : TStmt (ZMod p)) : Prop := ∃ e err, s = .assertion e err ∧ evalT env e = .ok (.bool true)

theorem rangeChecks_hold : ∀ {as : List (Access (ZMod p))} {t : CType}, AccWt as → TypeOk t → AccOk env as t → ∀ s ∈ rangeChecks as t, CheckHolds env s
  | [], t, _, _, _, s, h => by simp [rangeChecks] at h
  | .select i :: as, t, hw, ht, ho, s, h => by
    cases t with
    | array n t =>
      obtain ⟨⟨k, h1, h2⟩, h3⟩ := ho
      simp only [rangeChecks, List.mem_cons, List.mem_flatMap] at h
      rcases h with h | ⟨_, _, h⟩
      · exact ⟨_, _, h, by rw [eval_lt (hw i (by simp)).1 h1]; simp [h2]⟩
      · exact rangeChecks_hold (fun j hj => hw j (by simp [hj])) ht.array h3 s h
    | _ => simp [rangeChecks] at h
  | .member i :: as, t, hw, ht, ho, s, h => by
    cases t with
    | struct ms =>
      obtain ⟨t, h1, h3⟩ := ho
      simp only [rangeChecks, List.mem_flatMap] at h
      obtain ⟨kt, h4, h⟩ := h
      split at h
      · rename_i hk
        have := lookup_notMem (k := kt.1) (v := kt.2) (by have := ht.1.1; simp only [CType.Distinct] at this; exact this.1) h4
        rw [hk, h1] at this
        cases this
        exact rangeChecks_hold (fun j hj => hw j (by simp [hj])) (ht.member h1) h3 s h
      · cases h
    | _ => simp [rangeChecks] at h
  | .element i :: as, t, hw, ht, ho, s, h => by
    cases t with
    | tuple ms =>
      obtain ⟨t, h1, h3⟩ := ho
      simp only [rangeChecks, List.mem_flatMap] at h
      obtain ⟨kt, h4, h⟩ := h
      split at h
      · rename_i hk
        have := zipIdx_mem h4
        rw [hk, h1] at this
        cases this
        exact rangeChecks_hold (fun j hj => hw j (by simp [hj])) (ht.element h1) h3 s h
      · cases h
    | _ => simp [rangeChecks] at h

theorem accOk_of_checks : ∀ {as : List (Access (ZMod p))} {t t' : CType}, AccWt as → accTy as t = some t' → (∀ s ∈ rangeChecks as t, CheckHolds env s) →
    AccOk env as t
  | [], t, _, _, _, _ => by simp [AccOk]
  | .select i :: as, t, t', hw, ht, h => by
    cases t with
    | array n t =>
      simp only [rangeChecks, List.mem_cons, List.mem_flatMap] at h
      have h0 := h _ (.inl rfl)
      obtain ⟨e, err, h1, h2⟩ := h0
      cases h1
      have hty := (hw i (by simp)).1
      have hk : ∃ k, evalT env i = .ok (.uint .b32 k) ∧ k < n := by
        simp only [evalT, hty, asUintOf] at h2
        obtain ⟨k, hk, h2⟩ := Prop'.exc_bind_ok h2
        obtain ⟨m, hm, h2⟩ := Prop'.exc_bind_ok h2
        obtain ⟨u, hu, hk⟩ := bind_ok hk
        rw [asUint_ok hk] at hu
        simp only [Except.bind, asUint, if_true] at hm
        cases hm
        injection h2 with h2
        exact ⟨k, hu, by simpa using h2⟩
      obtain ⟨k, hk1, hk2⟩ := hk
      refine ⟨⟨k, hk1, hk2⟩, accOk_of_checks (fun j hj => hw j (by simp [hj])) ht fun s hs => h s (.inr ⟨k, by simpa using hk2, hs⟩)⟩
    | _ => simp [accTy] at ht
  | .member i :: as, t, t', hw, ht, h => by
    cases t with
    | struct ms =>
      simp only [accTy] at ht
      obtain ⟨t, h1, h2⟩ := Option.bind_eq_some_iff.1 ht
      refine ⟨t, h1, accOk_of_checks (fun j hj => hw j (by simp [hj])) h2 fun s hs => h s ?_⟩
      simp only [rangeChecks, List.mem_flatMap]
      exact ⟨(i, t), lookup_mem h1, by simpa using hs⟩
    | _ => simp [accTy] at ht
  | .element i :: as, t, t', hw, ht, h => by
    cases t with
    | tuple ms =>
      simp only [accTy] at ht
      obtain ⟨t, h1, h2⟩ := Option.bind_eq_some_iff.1 ht
      refine ⟨t, h1, accOk_of_checks (fun j hj => hw j (by simp [hj])) h2 fun s hs => h s ?_⟩
      simp only [rangeChecks, List.mem_flatMap]
      exact ⟨(t, i), List.mem_zipIdx_iff_getElem?.2 h1, by simpa using hs⟩
    | _ => simp [accTy] at ht

theorem exec_checks {σ : TState p} : ∀ {cs : List (TStmt (ZMod p))}, (∀ s ∈ cs, CheckHolds σ.env s) → ExecTs O σ cs (.ok σ)
  | [], _ => .nil
  | c :: cs, h => by
    obtain ⟨e, err, rfl, h1⟩ := h c (by simp)
    exact .cons (.assertOk h1) (exec_checks fun s hs => h s (by simp [hs]))

/-! ### The statement -/

theorem isConstant_ident {a : TAssignee (ZMod p)} (h : isConstant a = false) : ∀ x t, a ≠ .ident x t := by
  rintro x t rfl
  simp [isConstant] at h

variable {ord : List (TStmt (ZMod p)) → List (TStmt (ZMod p))}

theorem ExecT.same {s : TStmt (ZMod p)} : StepFor O (fun σ τ => σ = τ) s [s] where
  fwd := by rintro σ τ σ' rfl h; exact ⟨σ', .one h, rfl⟩
  bwd := by rintro σ τ τ' rfl h; exact .inl ⟨τ', h.of_one, rfl⟩
  err := by rintro σ τ e rfl h; exact ⟨e, h.of_one⟩
  asr := by rintro σ τ e err rfl rfl h; exact ⟨[], e, err, [], σ, rfl, .nil, h⟩

theorem writeStmt_step (hord : Enumerates ord) {rt : CType} {s : TStmt (ZMod p)} {ss : List (TStmt (ZMod p))} (hw : s.Wt rt)
    (h : writeStmt ord s = some ss) : StepFor O (fun σ τ => σ = τ) s ss := by
  cases s with
  | definition a e =>
    simp only [writeStmt] at h
    split at h
    · cases h; exact ExecT.same
    · rename_i hc
      split at h
      · rename_i e' he'
        cases h
        have hc : isConstant a = false := by simpa using hc
        obtain ⟨w1, w2, w3⟩ := hw
        obtain ⟨g1, g2⟩ := linear_wt w2
        have groot := linear_root a
        refine StepFor.of_fwd (t := rt) trivial (show TStmt.Wt rt (.definition a e) from ⟨w1, w2, w3⟩) ?_ ?_ ?_
        · intro s hs
          rw [List.mem_append, hord] at hs
          rcases hs with hs | hs
          · obtain ⟨i, n, _, rfl⟩ := rangeChecks_shape hs
            trivial
          · simp at hs; subst hs; trivial
        · rintro σ τ σ' rfl hx
          cases hx with
          | @definition _ _ v u h1 h2 =>
            obtain ⟨w, hg⟩ := setA_getA w2 (isConstant_ident hc) h2
            obtain ⟨r, h3, h4⟩ := setA_path hg h2
            have hrt : HasType (linear a).1.2 r := by
              have := eval_hasType σ.env (.ident (linear a).1.1 (linear a).1.2) r (by rw [groot]; exact g2) h3
              simpa [TExpr.ty] using this
            have hok := h4.accOk hrt
            have h5 := chooseMany_eval he' h3 (by simpa [TExpr.ty] using hrt) (by rw [groot]; simpa [TExpr.ty] using g2.1.1) h1 h4
            refine ⟨_, (exec_checks (cs := ord _) fun s hs => ?_).append (.one (.definition (u := u) h5 rfl)), ?_⟩
            · exact rangeChecks_hold g1 (by rw [groot]; exact g2) hok s ((hord _ _).1 hs)
            · simp only [TAssignee.root, groot]
        · intro σ τ e err _ h
          cases h
      · cases h
  | _ => simp only [writeStmt] at h; cases h; exact ExecT.same

theorem writeStmts_blocks {b : List (TStmt (ZMod p))} : ∀ {body : List (TStmt (ZMod p))}, writeStmts ord body = some b →
    ∃ tss, b = tss.flatten ∧ List.Forall₂ (fun s ss => writeStmt ord s = some ss) body tss := by
  intro body
  induction body generalizing b with
  | nil => intro h; simp only [writeStmts] at h; cases h; exact ⟨[], rfl, .nil⟩
  | cons s body ih =>
    intro h
    simp only [writeStmts] at h
    split at h
    · rename_i as bs h1 h2
      cases h
      obtain ⟨tss, h3, h4⟩ := ih h2
      exact ⟨as :: tss, by simp [h3], .cons h1 h4⟩
    · cases h

theorem removeWrites_replaces (hord : Enumerates ord) {f g : TFun (ZMod p)} (hw : f.Wt) (h : removeWrites ord f = some g) : Replaces O f g := by
  obtain ⟨b, h1, rfl⟩ := Option.map_eq_some_iff.1 h
  obtain ⟨tss, h2, h3⟩ := writeStmts_blocks h1
  refine Replaces.of_steps (R := fun σ τ => σ = τ) (by rintro σ τ rfl; rfl) rfl h2 ?_ (fun _ => rfl)
  exact (forall₂_mem h3).imp fun s ss h => writeStmt_step hord (hw.body s h.2.1) h.1

/-! ### No panic, and the conditions of the next passes -/

theorem mapM_total {α β : Type _} {f : α → Option β} : ∀ {l : List α}, (∀ a ∈ l, ∃ b, f a = some b) → ∃ l', l.mapM f = some l'
  | [], _ => ⟨[], rfl⟩
  | a :: l, h => by
    obtain ⟨b, hb⟩ := h a (by simp)
    obtain ⟨bs, hbs⟩ := mapM_total (l := l) fun x hx => h x (by simp [hx])
    exact ⟨b :: bs, by simp [List.mapM_cons, hb, hbs]⟩

theorem wtL_iff {es : List (TExpr (ZMod p))} : WtL es ↔ ∀ e ∈ es, e.Wt := by
  induction es with
  | nil => simp [WtL]
  | cons e es ih => simp [WtL, ih]

theorem forall₂_map_eq {α β γ : Type _} {f : α → γ} {g : β → γ} {a : List α} {b : List β} (h : List.Forall₂ (fun x y => f x = g y) a b) : a.map f = b.map g := by
  induction h with
  | nil => rfl
  | cons h1 _ ih => simp [h1, ih]

theorem forall₂_right {α β : Type _} {R : α → β → Prop} {P : β → Prop} {a : List α} {b : List β} (h : List.Forall₂ R a b) (hp : ∀ x y, R x y → P y) : ∀ y ∈ b, P y := by
  induction h with
  | nil => simp
  | cons h1 _ ih => intro y hy; rcases List.mem_cons.1 hy with rfl | hy
                    · exact hp _ _ h1
                    · exact ih y hy

theorem wtS_exprs {t : CType} : ∀ {es : List (TSpread (ZMod p))}, (∀ e ∈ es, ∃ x, e = .expr x ∧ x.ty = t ∧ x.Wt) → WtS t es ∧ spreadCount t es es.length
  | [], _ => by simp [WtS, spreadCount]
  | e :: es, h => by
    obtain ⟨x, rfl, h1, h2⟩ := h e (by simp)
    obtain ⟨h3, h4⟩ := wtS_exprs (es := es) fun y hy => h y (by simp [hy])
    exact ⟨⟨⟨h1, h2⟩, h3⟩, ⟨es.length, rfl, h4⟩⟩

/-- `choose_many` does not panic on well-typed arguments, and returns a well-typed expression of the type of the base. -/
theorem chooseMany_wt : ∀ {as : List (Access (ZMod p))} {base new : TExpr (ZMod p)}, base.Wt → TypeOk base.ty → base.ty.Small → AccWt as →
    accTy as base.ty = some new.ty → new.Wt → ∃ e, chooseMany as base new = some e ∧ e.ty = base.ty ∧ e.Wt
  | [], base, new, _, _, _, _, h, hn => by
    simp only [accTy, Option.some.injEq] at h
    exact ⟨new, rfl, h.symm, hn⟩
  | .select i :: as, base, new, hb, ho, hs, ha, h, hn => by
    simp only [chooseMany]
    cases hty : base.ty with
    | array n t =>
      rw [hty] at ho hs h
      simp only [accTy] at h
      simp only [CType.Small] at hs
      have key : ∀ k ∈ List.range n, ∃ e, (chooseMany as (.select t base (.uval .b32 k)) new).map (fun e =>
          TSpread.expr (.cond t (.eq (.uval .b32 k) i) e (.select t base (.uval .b32 k)))) = some e ∧ ∃ x, e = .expr x ∧ x.ty = t ∧ x.Wt := by
        intro k hk
        have hk : k < n := by simpa using hk
        have hsel : (TExpr.select t base (.uval .b32 k)).Wt := by
          simp only [TExpr.Wt]
          exact ⟨⟨n, hty⟩, rfl, hb, by have := hs.1; simp only [UW.bits]; omega⟩
        obtain ⟨e, h1, h2, h3⟩ := chooseMany_wt (as := as) (base := .select t base (.uval .b32 k)) (new := new) hsel ho.array hs.2
          (fun j hj => ha j (by simp [hj])) h hn
        rw [h1]
        refine ⟨_, rfl, _, rfl, rfl, ?_⟩
        simp only [TExpr.Wt, TExpr.ty] at h2 hsel ⊢
        refine ⟨trivial, h2, trivial, ⟨(ha i (by simp)).1.symm, ?_, ?_, (ha i (by simp)).2⟩, h3, hsel⟩
        · exact ⟨by simp [CType.Distinct, CType.Small], by simp [primCount]⟩
        · have := hs.1; simp only [UW.bits]; omega
      obtain ⟨es, hes⟩ := mapM_total fun k hk => (key k hk).imp fun e h => h.1
      simp only [hes, Option.map_some]
      refine ⟨_, rfl, rfl, ?_⟩
      have hf := forall₂_mem (mapM_forall₂ hes)
      obtain ⟨h5, h6⟩ := wtS_exprs (t := t) (es := es) (forall₂_right hf fun k y h => by
        obtain ⟨e, h1, h2⟩ := key k h.2.1
        rw [h.1] at h1
        cases h1
        exact h2)
      simp only [TExpr.Wt]
      refine ⟨ho.array, ?_, h5⟩
      have hl := hf.length_eq
      rw [List.length_range] at hl
      rwa [← hl] at h6
    | _ => rw [hty] at h; simp [accTy] at h
  | .member i :: as, base, new, hb, ho, hs, ha, h, hn => by
    simp only [chooseMany]
    cases hty : base.ty with
    | struct ms =>
      rw [hty] at ho hs h
      simp only [accTy] at h
      simp only [CType.Small] at hs
      obtain ⟨t, hl, hat⟩ := Option.bind_eq_some_iff.1 h
      have hd := ho.1.1
      simp only [CType.Distinct] at hd
      have key : ∀ kt ∈ ms, ∃ e, (if kt.1 = i then chooseMany as (.member kt.2 base i) new else some (.member kt.2 base kt.1)) = some e ∧ e.ty = kt.2 ∧ e.Wt := by
        rintro ⟨k, t1⟩ hk
        have hl1 := lookup_notMem hd.1 hk
        simp only
        split
        · rename_i hki
          subst hki
          rw [hl] at hl1
          cases hl1
          obtain ⟨e, h1, h2, h3⟩ := chooseMany_wt (as := as) (base := .member t base k) (new := new) ⟨⟨ms, hty, hl⟩, hb⟩ (ho.member hl) (smallM_lookup hs hk)
            (fun j hj => ha j (by simp [hj])) hat hn
          exact ⟨e, h1, h2, h3⟩
        · exact ⟨_, rfl, rfl, ⟨ms, hty, hl1⟩, hb⟩
      obtain ⟨es, hes⟩ := mapM_total fun k hk => (key k hk).imp fun e h => h.1
      simp only [hes, Option.map_some]
      refine ⟨_, rfl, rfl, ?_⟩
      have hf := (forall₂_mem (mapM_forall₂ hes)).imp (S := fun kt (e : TExpr (ZMod p)) => e.ty = kt.2 ∧ e.Wt) fun kt e h => by
        obtain ⟨e', h1, h2⟩ := key kt h.2.1
        rw [h.1] at h1
        cases h1
        exact h2
      simp only [TExpr.Wt]
      exact ⟨hd.1, (forall₂_map_eq (hf.imp fun a b h => h.1.symm)).symm, wtL_iff.2 (forall₂_right hf fun _ _ h => h.2)⟩
    | _ => rw [hty] at h; simp [accTy] at h
  | .element i :: as, base, new, hb, ho, hs, ha, h, hn => by
    simp only [chooseMany]
    cases hty : base.ty with
    | tuple ts =>
      rw [hty] at ho hs h
      simp only [accTy] at h
      simp only [CType.Small] at hs
      obtain ⟨t, hl, hat⟩ := Option.bind_eq_some_iff.1 h
      have key : ∀ kt ∈ ts.zipIdx, ∃ e, (if kt.2 = i then chooseMany as (.element kt.1 base i) new else some (.element kt.1 base kt.2)) = some e ∧ e.ty = kt.1 ∧ e.Wt := by
        rintro ⟨t1, k⟩ hk
        have hl1 := zipIdx_mem hk
        simp only at hl1 ⊢
        split
        · rename_i hki
          subst hki
          rw [hl] at hl1
          cases hl1
          obtain ⟨e, h1, h2, h3⟩ := chooseMany_wt (as := as) (base := .element t base k) (new := new) ⟨⟨ts, hty, hl⟩, hb⟩ (ho.element hl)
            (smallL_get hs (List.mem_of_getElem? hl)) (fun j hj => ha j (by simp [hj])) hat hn
          exact ⟨e, h1, h2, h3⟩
        · exact ⟨_, rfl, rfl, ⟨ts, hty, hl1⟩, hb⟩
      obtain ⟨es, hes⟩ := mapM_total fun k hk => (key k hk).imp fun e h => h.1
      simp only [hes, Option.map_some]
      refine ⟨_, rfl, rfl, ?_⟩
      have hf := (forall₂_mem (mapM_forall₂ hes)).imp (S := fun kt (e : TExpr (ZMod p)) => e.ty = kt.1 ∧ e.Wt) fun kt e h => by
        obtain ⟨e', h1, h2⟩ := key kt h.2.1
        rw [h.1] at h1
        cases h1
        exact h2
      simp only [TExpr.Wt]
      refine ⟨?_, wtL_iff.2 (forall₂_right hf fun _ _ h => h.2)⟩
      rw [← forall₂_map_eq (f := Prod.fst) (g := TExpr.ty) (hf.imp fun a b h => h.1.symm), List.zipIdx_map_fst]
    | _ => rw [hty] at h; simp [accTy] at h

theorem rangeChecks_wt : ∀ {as : List (Access (ZMod p))} {t : CType}, AccWt as → t.Small → ∀ s ∈ rangeChecks as t, ∀ rt, s.Wt rt
  | [], t, _, _, s, h, _ => by simp [rangeChecks] at h
  | .select i :: as, t, hw, ht, s, h, rt => by
    cases t with
    | array n t =>
      simp only [CType.Small] at ht
      simp only [rangeChecks, List.mem_cons, List.mem_flatMap] at h
      rcases h with rfl | ⟨_, _, h⟩
      · exact ⟨rfl, ⟨.b32, (hw i (by simp)).1, rfl⟩, (hw i (by simp)).2, by simp only [TExpr.Wt, UW.bits]; exact ht.1⟩
      · exact rangeChecks_wt (fun j hj => hw j (by simp [hj])) ht.2 s h rt
    | _ => simp [rangeChecks] at h
  | .member i :: as, t, hw, ht, s, h, rt => by
    cases t with
    | struct ms =>
      simp only [CType.Small] at ht
      simp only [rangeChecks, List.mem_flatMap] at h
      obtain ⟨kt, h4, h⟩ := h
      split at h
      · exact rangeChecks_wt (fun j hj => hw j (by simp [hj])) (smallM_lookup (m := kt.1) ht h4) s h rt
      · cases h
    | _ => simp [rangeChecks] at h
  | .element i :: as, t, hw, ht, s, h, rt => by
    cases t with
    | tuple ms =>
      simp only [CType.Small] at ht
      simp only [rangeChecks, List.mem_flatMap] at h
      obtain ⟨kt, h4, h⟩ := h
      split at h
      · exact rangeChecks_wt (fun j hj => hw j (by simp [hj])) (smallL_get ht (List.mem_of_getElem? (zipIdx_mem h4))) s h rt
      · cases h
    | _ => simp [rangeChecks] at h

theorem writeStmt_wt (hord : Enumerates ord) {rt : CType} {s : TStmt (ZMod p)} (hw : s.Wt rt) :
    ∃ ss, writeStmt ord s = some ss ∧ ∀ s ∈ ss, s.Wt rt := by
  cases s with
  | definition a e =>
    simp only [writeStmt]
    split
    · exact ⟨_, rfl, by simpa using hw⟩
    · obtain ⟨w1, w2, w3⟩ := hw
      obtain ⟨g1, g2⟩ := linear_wt w2
      have groot := linear_root a
      have hty := linear_ty a
      rw [w1] at hty
      obtain ⟨e', h1, h2, h3⟩ := chooseMany_wt (as := (linear a).2) (base := .ident (linear a).1.1 (linear a).1.2) (new := e)
        (by rw [groot]; exact g2) (by rw [groot]; exact g2) (by rw [groot]; exact g2.1.2) g1 hty w3
      rw [h1]
      refine ⟨_, rfl, fun s hs' => ?_⟩
      rw [List.mem_append, hord] at hs'
      rcases hs' with hs' | hs'
      · exact rangeChecks_wt g1 (by rw [groot]; exact g2.1.2) s hs' rt
      · simp only [List.mem_singleton] at hs'
        subst hs'
        refine ⟨by rw [h2]; rfl, by rw [groot]; exact g2, h3⟩
  | _ => exact ⟨_, rfl, by simpa using hw⟩

theorem removeWrites_wt (hord : Enumerates ord) {f : TFun (ZMod p)} (hw : f.Wt) : ∃ g, removeWrites ord f = some g ∧ g.Wt := by
  have key : ∀ body : List (TStmt (ZMod p)), (∀ s ∈ body, s.Wt f.ret) → ∃ b, writeStmts ord body = some b ∧ ∀ s ∈ b, s.Wt f.ret := by
    intro body
    induction body with
    | nil => intro _; exact ⟨[], rfl, by simp⟩
    | cons s body ih =>
      intro h1
      obtain ⟨as, h3, h4⟩ := writeStmt_wt hord (h1 s (by simp))
      obtain ⟨bs, h5, h6⟩ := ih (fun s hs => h1 s (by simp [hs]))
      refine ⟨as ++ bs, by simp only [writeStmts, h3, h5], fun s hs => ?_⟩
      rcases List.mem_append.1 hs with hs | hs
      · exact h4 s hs
      · exact h6 s hs
  obtain ⟨b, h1, h2⟩ := key f.body hw.body
  exact ⟨{ f with body := b }, by simp [removeWrites, h1], hw.params, hw.ret, h2⟩

theorem isConstant_iff : ∀ {a : TAssignee (ZMod p)}, isConstant a = true ↔ a.ConstantIndices
  | .ident x t => by simp [isConstant, TAssignee.ConstantIndices, TAssignee.indices]
  | .member a m => by simpa [isConstant, TAssignee.ConstantIndices, TAssignee.indices] using isConstant_iff (a := a)
  | .element a m => by simpa [isConstant, TAssignee.ConstantIndices, TAssignee.indices] using isConstant_iff (a := a)
  | .select a i => by
    have ih := isConstant_iff (a := a)
    simp only [TAssignee.ConstantIndices] at ih
    simp only [isConstant, TAssignee.ConstantIndices, TAssignee.indices, List.mem_append, List.mem_singleton]
    constructor
    · intro h j hj
      split at h
      · rename_i w k
        rcases hj with hj | rfl
        · exact ih.1 h j hj
        · exact ⟨w, k, rfl⟩
      · cases h
    · intro h
      obtain ⟨w, k, rfl⟩ := h i (.inr rfl)
      exact ih.2 fun j hj => h j (.inl hj)

theorem writeStmts_constant (hord : Enumerates ord) {body b : List (TStmt (ZMod p))} (h : writeStmts ord body = some b) {a : TAssignee (ZMod p)}
    {e : TExpr (ZMod p)} (hm : .definition a e ∈ b) : a.ConstantIndices := by
  obtain ⟨tss, rfl, h2⟩ := writeStmts_blocks h
  obtain ⟨ss, h3, h4⟩ := List.mem_flatten.1 hm
  refine forall₂_right (P := fun ss => ∀ a e, TStmt.definition a e ∈ ss → a.ConstantIndices) h2 ?_ ss h3 a e h4
  intro s ss h a e hm
  cases s with
  | definition a' e' =>
    simp only [writeStmt] at h
    split at h
    · rename_i hc
      cases h
      simp only [List.mem_singleton] at hm
      cases hm
      exact isConstant_iff.1 hc
    · split at h
      · cases h
        rw [List.mem_append, hord] at hm
        rcases hm with hm | hm
        · obtain ⟨i, n, _, h⟩ := rangeChecks_shape hm
          cases h
        · simp only [List.mem_singleton] at hm
          cases hm
          intro i hi
          simp [TAssignee.indices] at hi
      · cases h
  | _ => simp only [writeStmt] at h; cases h; simp at hm

theorem freshCalls_checks {ss : List (TStmt (ZMod p))} {seen : List TId} (h : FreshCalls seen ss) : ∀ {cs : List (TStmt (ZMod p))},
    (∀ s ∈ cs, ∃ e err, s = .assertion e err) → FreshCalls seen (cs ++ ss)
  | [], _ => h
  | c :: cs, hc => by
    obtain ⟨e, err, rfl⟩ := hc c (by simp)
    exact ⟨fun a f g args h => (by cases h), by simpa [TStmt.assigns] using freshCalls_checks h fun s hs => hc s (by simp [hs])⟩

theorem writeStmts_fresh (hord : Enumerates ord) : ∀ {body b : List (TStmt (ZMod p))} {seen : List TId}, writeStmts ord body = some b → FreshCalls seen body →
    FreshCalls seen b
  | [], b, seen, h, hf => by simp only [writeStmts] at h; cases h; exact hf
  | s :: body, b, seen, h, hf => by
    simp only [writeStmts] at h
    split at h
    · rename_i as bs h1 h2
      cases h
      have ih := writeStmts_fresh hord h2 hf.2
      have same : as = [s] → FreshCalls seen (as ++ bs) := by rintro rfl; exact ⟨hf.1, ih⟩
      cases s with
      | definition a e =>
        simp only [writeStmt] at h1
        split at h1
        · cases h1; exact same rfl
        · split at h1
          · cases h1
            rw [List.append_assoc]
            refine freshCalls_checks ?_ fun s hs => ?_
            · refine ⟨fun a f g args h => (by cases h), ?_⟩
              simp only [TStmt.assigns, TAssignee.root, linear_root]
              exact ih
            · obtain ⟨i, n, _, h⟩ := rangeChecks_shape ((hord _ _).1 hs)
              exact ⟨_, _, h⟩
          · cases h1
      | _ => simp only [writeStmt] at h1; cases h1; exact same rfl
    · cases h

/-! ### Indices out of range -/

theorem AccOk.append : ∀ {as bs : List (Access (ZMod p))} {t : CType}, AccOk env (as ++ bs) t → ∃ t', accTy as t = some t' ∧ AccOk env as t ∧ AccOk env bs t'
  | [], bs, t, h => ⟨t, rfl, trivial, h⟩
  | .select i :: as, bs, t, h => by
    cases t with
    | array n t =>
      obtain ⟨h1, h2⟩ := h
      obtain ⟨t', h3, h4, h5⟩ := AccOk.append h2
      exact ⟨t', h3, ⟨h1, h4⟩, h5⟩
    | _ => simp [AccOk] at h
  | .member i :: as, bs, t, h => by
    cases t with
    | struct ms =>
      obtain ⟨t, h1, h2⟩ := h
      obtain ⟨t', h3, h4, h5⟩ := AccOk.append h2
      exact ⟨t', by simp [accTy, h1, h3], ⟨t, h1, h4⟩, h5⟩
    | _ => simp [AccOk] at h
  | .element i :: as, bs, t, h => by
    cases t with
    | tuple ms =>
      obtain ⟨t, h1, h2⟩ := h
      obtain ⟨t', h3, h4, h5⟩ := AccOk.append h2
      exact ⟨t', by simp [accTy, h1, h3], ⟨t, h1, h4⟩, h5⟩
    | _ => simp [AccOk] at h

theorem setA_total {r : AVal (ZMod p)} : ∀ {a : TAssignee (ZMod p)}, evalT env (.ident a.root a.rootTy) = .ok r → AccOk env (linear a).2 a.rootTy →
    (∃ w, getA env a = .ok w) ∧ ∀ v, ∃ u, setA env a v = .ok u
  | .ident x t, h, _ => ⟨⟨r, h⟩, fun v => ⟨v, rfl⟩⟩
  | .select a i, h, hk => by
    simp only [linear] at hk
    obtain ⟨t', h1, h2, h3⟩ := hk.append
    obtain ⟨⟨w, h4⟩, h5⟩ := setA_total (a := a) h h2
    have hty := linear_ty a
    rw [linear_root, show accTy (linear a).2 a.rootTy = some t' from h1] at hty
    have ht := getA_hasType hty.symm h4
    cases t' with
    | array n t =>
      obtain ⟨⟨k, h6, h7⟩, _⟩ := h3
      cases w with
      | array vs =>
        simp only [HasType] at ht
        have hlt : k < vs.length := by omega
        refine ⟨⟨vs[k], ?_⟩, fun v => ?_⟩
        · simp only [getA, h4, h6]
          change selectVal vs k = _
          simp only [selectVal, List.getElem?_eq_getElem hlt]
        · obtain ⟨u, hu⟩ := h5 (.array (vs.set k v))
          refine ⟨u, ?_⟩
          simp only [setA, h4, h6]
          change (if k < vs.length then setA env a (.array (vs.set k v)) else _) = _
          rw [if_pos hlt, hu]
      | _ => simp [HasType] at ht
    | _ => simp [AccOk] at h3
  | .member a m, h, hk => by
    simp only [linear] at hk
    obtain ⟨t', h1, h2, h3⟩ := hk.append
    obtain ⟨⟨w, h4⟩, h5⟩ := setA_total (a := a) h h2
    have hty := linear_ty a
    rw [linear_root, show accTy (linear a).2 a.rootTy = some t' from h1] at hty
    have ht := getA_hasType hty.symm h4
    cases t' with
    | struct ms =>
      obtain ⟨t, h6, _⟩ := h3
      cases w with
      | struct vs =>
        simp only [HasType] at ht
        obtain ⟨x, hx⟩ := hasTypeM_lookup_some ht h6
        refine ⟨⟨x, by simp only [getA, h4, bind, Except.bind, hx]⟩, fun v => ?_⟩
        obtain ⟨u, hu⟩ := h5 (.struct (vs.map fun kv : Str × AVal (ZMod p) => if kv.1 = m then (kv.1, v) else kv))
        exact ⟨u, by simp only [setA, h4, bind, Except.bind, hu]⟩
      | _ => simp [HasType] at ht
    | _ => simp [AccOk] at h3
  | .element a m, h, hk => by
    simp only [linear] at hk
    obtain ⟨t', h1, h2, h3⟩ := hk.append
    obtain ⟨⟨w, h4⟩, h5⟩ := setA_total (a := a) h h2
    have hty := linear_ty a
    rw [linear_root, show accTy (linear a).2 a.rootTy = some t' from h1] at hty
    have ht := getA_hasType hty.symm h4
    cases t' with
    | tuple ms =>
      obtain ⟨t, h6, _⟩ := h3
      cases w with
      | tuple vs =>
        simp only [HasType] at ht
        have hl := hasTypeL_length ht
        obtain ⟨hm, _⟩ := List.getElem?_eq_some_iff.1 h6
        have hm' : m < vs.length := by omega
        refine ⟨⟨vs[m], by simp only [getA, h4, bind, Except.bind, List.getElem?_eq_getElem hm']⟩, fun v => ?_⟩
        obtain ⟨u, hu⟩ := h5 (.tuple (vs.set m v))
        exact ⟨u, by simp only [setA, h4, bind, Except.bind, hu]⟩
      | _ => simp [HasType] at ht
    | _ => simp [AccOk] at h3

theorem first_false (O : Oracle p Z) {σ : TState p} : ∀ {cs : List (TStmt (ZMod p))}, (∀ s ∈ cs, ∃ e err b, s = .assertion e err ∧ evalT σ.env e = .ok (.bool b)) →
    ¬ (∀ s ∈ cs, CheckHolds σ.env s) → ∃ pre e err post, cs = pre ++ .assertion e err :: post ∧ ExecTs O σ pre (.ok σ) ∧ evalT σ.env e = .ok (.bool false)
  | [], _, h => by simp at h
  | c :: cs, h, hn => by
    obtain ⟨e, err, b, rfl, h1⟩ := h c (by simp)
    cases b with
    | false => exact ⟨[], e, err, cs, rfl, .nil, h1⟩
    | true =>
      obtain ⟨pre, e', err', post, h2, h3, h4⟩ := first_false O (cs := cs) (fun s hs => h s (by simp [hs])) fun h' => hn fun s hs => by
        rcases List.mem_cons.1 hs with rfl | hs
        · exact ⟨e, err, rfl, h1⟩
        · exact h' s hs
      exact ⟨.assertion e err :: pre, e', err', post, by rw [h2]; rfl, .cons (.assertOk h1) h3, h4⟩

theorem removeWrites_outOfRange (hord : Enumerates ord) {f g : TFun (ZMod p)} (hw : f.Wt) (h : removeWrites ord f = some g) {args : List (AVal (ZMod p))}
    (ht : HasTypeL (f.params.map TParam.ty) args) {pre post : List (TStmt (ZMod p))} {a : TAssignee (ZMod p)} {e : TExpr (ZMod p)} {σ : TState p}
    {r : AVal (ZMod p)} (hb : f.body = pre ++ .definition a e :: post) (hx : ExecTs O (initT f args) pre (.ok σ)) (hc : ¬ a.ConstantIndices)
    (hr : evalT σ.env (.ident a.root a.rootTy) = .ok r) (hi : ∀ i ∈ a.indices, ∃ v, evalT σ.env i = .ok v)
    (ho : ∀ v, ¬ ∃ u, setA σ.env a v = .ok u) : AssertFailsT O g args := by
  obtain ⟨b, h1, rfl⟩ := Option.map_eq_some_iff.1 h
  obtain ⟨tss, h2, h3⟩ := writeStmts_blocks h1
  rw [hb] at h3
  obtain ⟨c1, c2, rfl, h4, h5⟩ := forall₂_append_left h3
  have hwd := hw.body (.definition a e) (by rw [hb]; simp)
  cases h5 with
  | @cons _ ss _ c2 h5 h6 =>
    have h7 := (StepFor.list (O := O) (R := fun σ τ => σ = τ) ((forall₂_mem h4).imp fun s ss h => writeStmt_step hord
      (hw.body s (by rw [hb]; simp [h.2.1])) h.1)).1 _ _ _ rfl hx
    obtain ⟨τ, h7, rfl⟩ := h7
    have hcc : isConstant a = false := by
      rw [← Bool.not_eq_true, isConstant_iff]; exact hc
    simp only [writeStmt, hcc] at h5
    obtain ⟨w1, w2, w3⟩ := hwd
    obtain ⟨g1, g2⟩ := linear_wt w2
    have groot := linear_root a
    simp only [groot] at h5
    simp only [Bool.false_eq_true, if_false] at h5
    split at h5
    · rename_i e3 he3
      cases h5
      have hbool : ∀ s ∈ ord (rangeChecks (linear a).2 a.rootTy), ∃ e err b, s = .assertion e err ∧ evalT σ.env e = .ok (.bool b) := by
        intro s hs
        obtain ⟨i, n, k1, k2⟩ := rangeChecks_shape ((hord _ _).1 hs)
        obtain ⟨v, hv⟩ := hi i (linear_indices.1 k1)
        have := eval_hasType _ _ _ (g1 i k1).2 hv
        rw [(g1 i k1).1] at this
        cases v with
        | uint w m =>
          simp only [HasType] at this
          rw [this.1] at hv
          exact ⟨_, _, _, k2, eval_lt (g1 i k1).1 hv⟩
        | _ => simp [HasType] at this
      have hnot : ¬ ∀ s ∈ ord (rangeChecks (linear a).2 a.rootTy), CheckHolds σ.env s := by
        intro hall
        have hty := linear_ty a
        rw [groot, w1] at hty
        have := accOk_of_checks g1 hty fun s hs => hall s ((hord _ _).2 hs)
        exact ho r ((setA_total hr this).2 r)
      obtain ⟨pre', e2, err2, post', k1, k2, k3⟩ := first_false O hbool hnot
      refine ⟨ht, c1.flatten ++ pre', e2, err2, post' ++ [.definition (.ident a.root a.rootTy) e3] ++ c2.flatten, σ, ?_, h7.append k2, k3⟩
      simp [h2, k1]
    · cases h5

end Zok.Typed
