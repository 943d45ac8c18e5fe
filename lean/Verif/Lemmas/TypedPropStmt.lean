import Verif.Lemmas.TypedPropEmbed
import Verif.Lemmas.TypedPass

/-
Constant propagation on typed programs: statements.
-/

set_option linter.unusedSectionVars false
set_option linter.unusedSimpArgs false

namespace Zok.Typed
open Abi
variable {p : ℕ} [Fact p.Prime] {Z : Type} {O : Oracle p Z} {C C' : Consts (ZMod p)}

/-- The states of the source and of the folded program. -/
structure RelC (C : Consts (ZMod p)) (σ τ : TState p) : Prop where
  out : τ.out = σ.out
  env : EnvRel C σ.env τ.env

theorem EnvRel.self {env env' : TEnv p} (h : EnvRel C env env') : EnvRel C env env := ⟨fun _ _ => rfl, h.const⟩

theorem RelC.insert {σ τ : TState p} (h : RelC C σ τ) {x : TId} {c : TExpr (ZMod p)} {u : AVal (ZMod p)} (hc : Denotes c u) : RelC (C.insert x c) (σ.set x u) τ where
  out := h.out
  env := by
    refine ⟨fun y hy => ?_, fun y c' hy => ?_⟩
    · simp only [Consts.insert] at hy
      split at hy
      · cases hy
      · rename_i hne
        simp only [TState.set, if_neg hne]
        exact h.env.same y hy
    · simp only [Consts.insert] at hy
      split at hy
      · rename_i he
        cases hy
        exact ⟨u, by simp only [TState.set, if_pos he], hc⟩
      · rename_i hne
        simp only [TState.set, if_neg hne]
        exact h.env.const y c' hy

theorem goodC_insert (hC : GoodC C) {x : TId} {c : TExpr (ZMod p)} (hc : Good c) : GoodC (C.insert x c) := by
  intro y c' h
  simp only [Consts.insert] at h
  split at h
  · cases h; exact hc
  · exact hC y c' h

theorem goodC_remove (hC : GoodC C) {x : TId} : GoodC (C.remove x) := by
  intro y c' h
  simp only [Consts.remove] at h
  split at h
  · cases h
  · exact hC y c' h

theorem RelC.remove {σ τ : TState p} (h : RelC C σ τ) (x : TId) (u : AVal (ZMod p)) : RelC (C.remove x) (σ.set x u) (τ.set x u) where
  out := h.out
  env := by
    refine ⟨fun y hy => ?_, fun y c' hy => ?_⟩
    · simp only [TState.set]
      split
      · rfl
      · rename_i hne
        simp only [Consts.remove, if_neg hne] at hy
        exact h.env.same y hy
    · simp only [Consts.remove] at hy
      split at hy
      · cases hy
      · rename_i hne
        simp only [TState.set, if_neg hne]
        exact h.env.const y c' hy

/-- The definition of the latest version of a constant, if any. -/
structure Prefix (O : Oracle p Z) (C : Consts (ZMod p)) (x : TId) (pre : List (TStmt (ZMod p))) : Prop where
  pure : ∀ s ∈ pre, s.Pure
  run : ∀ σ τ, RelC C σ τ → ∃ τ1, ExecTs O τ pre (.ok τ1) ∧ RelC C σ τ1 ∧ τ1.env x = σ.env x

theorem invalidate_inv {a : TAssignee (ZMod p)} {s : TStmt (ZMod p)} {ss : List (TStmt (ZMod p))} (h : invalidate C a s = .ok (C', ss)) : C' = C.remove a.root ∧
    ∃ pre, ss = pre ++ [s] ∧ Prefix O C a.root pre ∧ (pre = [] ∨ ∃ c, C a.root = some c ∧ c.ty = a.rootTy ∧ pre = [.definition (.ident a.root a.rootTy) c]) := by
  simp only [invalidate] at h
  obtain ⟨o, _, h⟩ := pbind_ok h
  split at h
  · rename_i c hc
    split at h
    · rename_i ht
      cases h
      refine ⟨rfl, [.definition (.ident a.root a.rootTy) c], rfl, ⟨fun s hs => ?_, fun σ τ hR => ?_⟩, .inr ⟨c, hc, ht, rfl⟩⟩
      · simp only [List.mem_singleton] at hs
        subst hs
        trivial
      · obtain ⟨v, h1, h2⟩ := hR.env.const _ _ hc
        refine ⟨τ.set a.root v, .one (.definition (a := .ident a.root a.rootTy) (h2 τ.env) (by simp only [setA])), ⟨hR.out, ⟨fun y hy => ?_, hR.env.const⟩⟩, ?_⟩
        · have : y ≠ a.root := by rintro rfl; rw [hc] at hy; cases hy
          simp only [TState.set, if_neg this]
          exact hR.env.same y hy
        · simp only [TState.set, if_true, h1]
    · cases h
  · rename_i hc
    cases h
    exact ⟨rfl, [], rfl, ⟨fun s hs => by simp at hs, fun σ τ hR => ⟨τ, .nil, hR, hR.env.same _ hc⟩⟩, .inl rfl⟩

/-- The assignment of a constant: it becomes a constant of the pass, or the definition is kept. -/
theorem assignConst_inv (hC : GoodC C) {once : Bool} {a : TAssignee (ZMod p)} {e : TExpr (ZMod p)} {ss : List (TStmt (ZMod p))} (he : e.Wt) (ht : a.ty = some e.ty)
    (h : assignConst C once a e = .ok (C', ss)) :
    (∃ c, ss = [] ∧ C' = C.insert a.root c ∧ Good c ∧ ∀ env w u, EnvRel C env env → evalT env e = .ok w → setA env a w = .ok u → Denotes c u) ∨
    invalidate C a (.definition a e) = .ok (C', ss) := by
  cases a with
  | ident x t =>
    simp only [assignConst] at h
    obtain ⟨c, h1, h⟩ := pbind_ok h
    split at h
    · cases h
    · cases h
      obtain ⟨v, d1, d2, ty, wt, cn⟩ := canon_spec e c h1 he
      refine .inl ⟨c, rfl, rfl, ⟨cn, wt, v, d2⟩, fun env w u _ hw hu => ?_⟩
      rw [d1 env] at hw
      cases hw
      simp only [setA] at hu
      cases hu
      exact d2
  | _ =>
    simp only [assignConst] at h
    obtain ⟨o, h1, h⟩ := pbind_ok h
    cases o with
    | none => exact .inr h
    | some c0 =>
      obtain ⟨c, h2, h⟩ := pbind_ok h
      obtain ⟨c', h3, h⟩ := pbind_ok h
      cases h
      obtain ⟨v, d1, d2, ty, wt, cn⟩ := canon_spec e c h2 he
      obtain ⟨g1, g2⟩ := setK_good hC ⟨cn, wt, v, d2⟩ (by rw [ht, ty]) h3
      refine .inl ⟨c', rfl, rfl, g1, fun env w u hR hw hu => ?_⟩
      rw [d1 env] at hw
      cases hw
      exact setK_val hC hR h3 d2 hu

theorem assignConst_undetected {once : Bool} {a : TAssignee (ZMod p)} {e : TExpr (ZMod p)} {er : PErr} (h : assignConst C once a e = .error er) : ¬ er.Detected := by
  have hi : ∀ s er, invalidate C a s = .error er → ¬ er.Detected := fun s er h => by
    simp only [invalidate] at h
    rcases perr_bind h with h | ⟨_, _, h⟩
    · exact getK_undetected h
    · split at h
      · split at h
        · cases h
        · cases h; simp [PErr.Detected]
      · cases h
  cases a with
  | ident x t =>
    simp only [assignConst] at h
    rcases perr_bind h with h | ⟨c, _, h⟩
    · exact canon_undetected h
    · split at h
      · cases h; simp [PErr.Detected]
      · cases h
  | _ =>
    simp only [assignConst] at h
    rcases perr_bind h with h | ⟨o, _, h⟩
    · exact getK_undetected h
    · cases o with
      | none => exact hi _ _ h
      | some c0 =>
        rcases perr_bind h with h | ⟨c, _, h⟩
        · exact canon_undetected h
        · rcases perr_bind h with h | ⟨c, _, h⟩
          · exact setK_undetected h
          · cases h

theorem invalidate_undetected {a : TAssignee (ZMod p)} {s : TStmt (ZMod p)} {er : PErr} (h : invalidate C a s = .error er) : ¬ er.Detected := by
  simp only [invalidate] at h
  rcases perr_bind h with h | ⟨_, _, h⟩
  · exact getK_undetected h
  · split at h
    · split at h
      · cases h
      · cases h; simp [PErr.Detected]
    · cases h

theorem rootTy_ok {F : Type} : ∀ {a : TAssignee F}, a.Wt → TypeOk a.rootTy
  | .ident _ _, w => w
  | .select a _, w => rootTy_ok (a := a) w.2.2.2
  | .member a _, w => rootTy_ok (a := a) w.2
  | .element a _, w => rootTy_ok (a := a) w.2

/-! ### A kept definition -/

/-- A statement whose folded form assigns the value `v` to the folded assignee. -/
theorem keep_fwd (hC : GoodC C) {a a' : TAssignee (ZMod p)} {e' : TExpr (ZMod p)} {ss : List (TStmt (ZMod p))} (ha : propA C a = .ok a') (wa : a.Wt)
    (h : invalidate C a' (.definition a' e') = .ok (C', ss)) {σ τ : TState p} (hR : RelC C σ τ) {v u : AVal (ZMod p)} (hu : setA σ.env a v = .ok u)
    (he : ∀ env', EnvRel C σ.env env' → evalT env' e' = .ok v) : ∃ τ', ExecTs O τ ss (.ok τ') ∧ RelC C' (σ.set a.root u) τ' := by
  obtain ⟨-, -, hr, -⟩ := propA_typed hC ha wa
  obtain ⟨rfl, pre, rfl, hp, -⟩ := invalidate_inv (O := O) h
  obtain ⟨τ1, g1, g2, g3⟩ := hp.run σ τ hR
  rw [hr] at g3 ⊢
  have hs := propA_set hC g2.env ha wa g3 hu
  refine ⟨τ1.set a.root u, g1.append (.one ?_), g2.remove a.root u⟩
  rw [← hr]
  exact .definition (he _ g2.env) hs

theorem const_fwd (hC : GoodC C) {once : Bool} {a a' : TAssignee (ZMod p)} {e' : TExpr (ZMod p)} {ss : List (TStmt (ZMod p))} (ha : propA C a = .ok a') (wa : a.Wt) (we : e'.Wt)
    (ht : a.ty = some e'.ty) (h : assignConst C once a' e' = .ok (C', ss)) {σ τ : TState p} (hR : RelC C σ τ) {v u : AVal (ZMod p)} (hu : setA σ.env a v = .ok u)
    (he : ∀ env', EnvRel C σ.env env' → evalT env' e' = .ok v) : ∃ τ', ExecTs O τ ss (.ok τ') ∧ RelC C' (σ.set a.root u) τ' := by
  obtain ⟨-, hty, hr, -⟩ := propA_typed hC ha wa
  rcases assignConst_inv hC we (by rw [hty, ht]) h with ⟨c, rfl, rfl, gc, hd⟩ | h
  · refine ⟨τ, .nil, ?_⟩
    rw [hr]
    have hs := propA_set hC hR.env.self ha wa rfl hu
    exact hR.insert (hd _ _ _ hR.env.self (he _ hR.env.self) hs)
  · exact keep_fwd hC ha wa h hR hu he

theorem prefix_pure {ss : List (TStmt (ZMod p))} {a : TAssignee (ZMod p)} {s : TStmt (ZMod p)} (hs : s.Pure) (h : invalidate C a s = .ok (C', ss)) : ∀ s ∈ ss, s.Pure := by
  obtain ⟨-, pre, rfl, hp, -⟩ := invalidate_inv (O := Oracle.any p Unit) h
  intro t ht
  rcases List.mem_append.mp ht with ht | ht
  · exact hp.pure t ht
  · simp only [List.mem_singleton] at ht; subst ht; exact hs

theorem const_pure (hC : GoodC C) {once : Bool} {a : TAssignee (ZMod p)} {e : TExpr (ZMod p)} {ss : List (TStmt (ZMod p))} (we : e.Wt) (ht : a.ty = some e.ty)
    (h : assignConst C once a e = .ok (C', ss)) : ∀ s ∈ ss, s.Pure := by
  rcases assignConst_inv hC we ht h with ⟨c, rfl, -⟩ | h
  · simp
  · exact prefix_pure (by trivial) h

/-! ### Statements -/

theorem propDef_inv {a : TAssignee (ZMod p)} {e : TExpr (ZMod p)} {ss : List (TStmt (ZMod p))} (h : propDef C a e = .ok (C', ss)) :
    (a.ty = some e.ty) ∧ (assignConst C true a e = .ok (C', ss) ∨ invalidate C a (.definition a e) = .ok (C', ss)) := by
  simp only [propDef] at h
  split at h
  · cases h
  · rename_i t ht
    split at h
    · cases h
    · rename_i hne
      have : t = e.ty := by by_contra hc; exact hne hc
      refine ⟨by rw [ht, this], ?_⟩
      split at h
      · exact .inl h
      · exact .inr h

/-- What the folded statements do. -/
structure StepC (O : Oracle p Z) (C C' : Consts (ZMod p)) (s : TStmt (ZMod p)) (ss : List (TStmt (ZMod p))) : Prop where
  fwd : s.UnpackOnly O → ∀ σ τ σ', RelC C σ τ → ExecT O σ s (.ok σ') → ∃ τ', ExecTs O τ ss (.ok τ') ∧ RelC C' σ' τ'
  bwd : s.UnpackSome O → ∀ σ τ τ', RelC C σ τ → ExecTs O τ ss (.ok τ') → (∃ σ', ExecT O σ s (.ok σ') ∧ RelC C' σ' τ') ∨ ∃ e, ExecT O σ s (.error e)
  err : s.UnpackSome O → ∀ σ τ e, RelC C σ τ → ExecTs O τ ss (.error e) → ∃ e', ExecT O σ s (.error e')
  asr : ∀ σ τ e err, RelC C σ τ → s = .assertion e err → evalT σ.env e = .ok (.bool false) → ∃ pre e' err' post τ', ss = pre ++ .assertion e' err' :: post ∧
    ExecTs O τ pre (.ok τ') ∧ evalT τ'.env e' = .ok (.bool false)

theorem StepC.of_pure {t : CType} {s : TStmt (ZMod p)} {ss : List (TStmt (ZMod p))} (hs : s.Pure) (hw : s.Wt t)
    (hss : ∀ s ∈ ss, s.Pure) (fwd : ∀ σ τ σ', RelC C σ τ → ExecT O σ s (.ok σ') → ∃ τ', ExecTs O τ ss (.ok τ') ∧ RelC C' σ' τ')
    (asr : ∀ σ τ e err, RelC C σ τ → s = .assertion e err → evalT σ.env e = .ok (.bool false) → ∃ pre e' err' post τ', ss = pre ++ .assertion e' err' :: post ∧
      ExecTs O τ pre (.ok τ') ∧ evalT τ'.env e' = .ok (.bool false)) : StepC O C C' s ss where
  fwd := fun _ => fwd
  asr := asr
  bwd := fun _ σ τ τ' hR h => by
    obtain ⟨r, hr⟩ := ExecT.total_wt (O := O) hs hw σ
    cases r with
    | error e => exact .inr ⟨e, hr⟩
    | ok σ' =>
      obtain ⟨τ'', h1, h2⟩ := fwd σ τ σ' hR hr
      have := h1.det (fun s h => (hss s h).free) h
      cases this
      exact .inl ⟨σ', hr, h2⟩
  err := fun _ σ τ e hR h => by
    obtain ⟨r, hr⟩ := ExecT.total_wt (O := O) hs hw σ
    cases r with
    | error e => exact ⟨e, hr⟩
    | ok σ' =>
      obtain ⟨τ'', h1, h2⟩ := fwd σ τ σ' hR hr
      have := h1.det (fun s h => (hss s h).free) h
      cases this

theorem propStmt_step (hC : GoodC C) {t : CType} {s : TStmt (ZMod p)} {ss : List (TStmt (ZMod p))} (hw : s.Wt t) (hA : s.ArgsTyped) (h : propStmt C s = .ok (C', ss)) :
    StepC O C C' s ss := by
  cases s with
  | ret e =>
    simp only [propStmt] at h
    obtain ⟨e', h1, h⟩ := pbind_ok h
    cases h
    refine .of_pure trivial hw (by simp [TStmt.Pure]) ?_ (fun _ _ _ _ _ h => by cases h)
    intro σ τ σ' hR hx
    cases hx with
    | ret hv => exact ⟨{ τ with out := some _ }, .one (.ret (propT_eval hC hR.env hw.2 h1 hv)), rfl, hR.env⟩
  | definition a e =>
    simp only [propStmt] at h
    obtain ⟨a', h1, h⟩ := pbind_ok h
    obtain ⟨e', h2, h⟩ := pbind_ok h
    obtain ⟨hty, h⟩ := propDef_inv h
    have te := propT_typed hC e e' h2 hw.2.2
    have ht' : a.ty = some e'.ty := by rw [hw.1, te.1]
    refine .of_pure trivial hw ?_ ?_ (fun _ _ _ _ _ h => by cases h)
    · rcases h with h | h
      · exact const_pure hC te.2.1 hty h
      · exact prefix_pure (by trivial) h
    · intro σ τ σ' hR hx
      cases hx with
      | definition hv hu =>
        rcases h with h | h
        · exact const_fwd hC h1 hw.2.1 te.2.1 ht' h hR hu fun env' hE => propT_eval hC hE hw.2.2 h2 hv
        · exact keep_fwd hC h1 hw.2.1 h hR hu fun env' hE => propT_eval hC hE hw.2.2 h2 hv
  | assertion e err =>
    simp only [propStmt] at h
    obtain ⟨e', h1, h⟩ := pbind_ok h
    split at h
    · cases h
    · rename_i hb
      cases h
      have := litB_some hb
      subst this
      refine .of_pure trivial hw (by simp) ?_ ?_
      · intro σ τ σ' hR hx
        cases hx with
        | assertOk hv => exact ⟨τ, .nil, hR⟩
      · rintro σ τ e0 err0 hR h0 hv
        cases h0
        have := propT_eval hC hR.env hw.2 h1 hv
        simp only [evalT] at this
        cases this
    · cases h
      refine .of_pure trivial hw (by simp [TStmt.Pure]) ?_ ?_
      · intro σ τ σ' hR hx
        cases hx with
        | assertOk hv => exact ⟨τ, .one (.assertOk (propT_eval hC hR.env hw.2 h1 hv)), hR⟩
      · rintro σ τ e0 err0 hR h0 hv
        cases h0
        exact ⟨[], e', err, [], τ, rfl, .nil, propT_eval hC hR.env hw.2 h1 hv⟩
  | log es =>
    simp only [propStmt] at h
    obtain ⟨e', h1, h⟩ := pbind_ok h
    cases h
    refine .of_pure trivial hw (by simp [TStmt.Pure]) ?_ (fun _ _ _ _ _ h => by cases h)
    intro σ τ σ' hR hx
    cases hx with
    | log hv => exact ⟨τ, .one (.log (propL_eval hC hR.env hw h1 hv)), hR⟩
  | embed a f g args =>
    simp only [propStmt] at h
    obtain ⟨a', h1, h⟩ := pbind_ok h
    obtain ⟨args', h2, h⟩ := pbind_ok h
    obtain ⟨r, h3, h⟩ := pbind_ok h
    obtain ⟨⟨t', ht1, ht2⟩, wa, wl⟩ := hw
    obtain ⟨ty', wl', -⟩ := propL_typed hC args args' h2 wl
    obtain ⟨-, hty, hr, -⟩ := propA_typed hC h1 wa
    have hev : ∀ {σ τ : TState p}, RelC C σ τ → ∀ {vs}, evalL σ.env args = .ok vs → evalL τ.env args' = .ok vs := fun hR vs hv => propL_eval hC hR.env wl h2 hv
    cases r with
    | some e =>
      have h3 : foldEmbed f g args' = .ok (some e) := by
        simp only [foldCall] at h3
        split at h3
        · exact h3
        · cases h3
      obtain ⟨ge, gt, w, hd, hres⟩ := foldEmbed_some (Z := Z) h3 wl' (by rw [ty']; exact hA) ht1
      have hte : a.ty = some e.ty := by rw [ht2, gt]
      have hwt : HasType t' w := by
        have := eval_hasType (fun _ => none) e w ge.wt (hd _)
        rwa [gt] at this
      have pu := const_pure hC ge.wt (by rw [hty, hte]) h
      have core : ∀ {σ τ : TState p} {u}, RelC C σ τ → setA σ.env a w = .ok u → ∃ τ', ExecTs O τ ss (.ok τ') ∧ RelC C' (σ.set a.root u) τ' := fun hR hu =>
        const_fwd hC h1 wa ge.wt hte h hR hu fun env' _ => hd env'
      have src : (TStmt.embed a f g args).UnpackSome O → ∀ {σ τ : TState p}, RelC C σ τ → (∃ e, ExecT O σ (.embed a f g args) (.error e)) ∨
          ∃ u, setA σ.env a w = .ok u ∧ ExecT O σ (.embed a f g args) (.ok (σ.set a.root u)) := by
        intro hO σ τ hR
        cases hl : evalL σ.env args with
        | error e => exact .inl ⟨e, .argsFault hl⟩
        | ok vs =>
          have he : EmbedRes O f g (primsL vs) (.ok (prims w)) := by
            rcases hres _ vs (hev ⟨rfl, hR.env.self⟩ hl) with ⟨_, k⟩ | ⟨rfl, n, x, bl, rfl, k1, k2, k3⟩
            · exact k O
            · rw [k1, k3]
              exact .unpack n x bl (hO x bl k2)
          cases hu : setA σ.env a w with
          | error e => exact .inl ⟨e, .embedLhsFault hl ht2 hwt he hu⟩
          | ok u => exact .inr ⟨u, rfl, .embed hl ht2 hwt he hu⟩
      refine ⟨?_, ?_, ?_, fun _ _ _ _ _ h => by cases h⟩
      · intro hO σ τ σ' hR hx
        cases hx with
        | @embed _ _ _ _ vs v t0 u hv g2 g3 g4 g5 =>
          rw [ht2] at g2
          cases g2
          have : v = w := by
            refine prims_inj t' v w g3 hwt ?_
            rcases hres _ vs (hev ⟨rfl, hR.env.self⟩ hv) with ⟨hf, k⟩ | ⟨rfl, n, x, bl, rfl, k1, k2, k3⟩
            · have := (k O).detOracle hf g4
              simpa using this
            · rw [k1] at g4
              rw [k3]
              generalize hq : prims v = q at g4
              cases g4 with
              | unpack n x bl' ho =>
                have := hO _ _ ho
                rw [k2] at this
                cases this
                rfl
          subst this
          exact core hR g5
      · intro hO σ τ τ' hR hx
        rcases src hO hR with h | ⟨u, k1, k2⟩
        · exact .inr h
        · obtain ⟨τ'', m1, m2⟩ := core hR k1
          have := m1.det (fun s h => (pu s h).free) hx
          cases this
          exact .inl ⟨_, k2, m2⟩
      · intro hO σ τ e hR hx
        rcases src hO hR with h | ⟨u, k1, k2⟩
        · exact h
        · obtain ⟨τ'', m1, m2⟩ := core hR k1
          have := m1.det (fun s h => (pu s h).free) hx
          cases this
    | none =>
      obtain ⟨rfl, pre, rfl, hp, -⟩ := invalidate_inv (O := O) h
      have back : ∀ {σ τ : TState p} {r : Except Fault (TState p)}, RelC C σ τ → ExecTs O τ (pre ++ [.embed a' f g args']) r →
          (∃ e, ExecT O σ (.embed a f g args) (.error e)) ∨ ∃ u τ1, r = .ok (τ1.set a.root u) ∧ RelC C σ τ1 ∧ ExecT O σ (.embed a f g args) (.ok (σ.set a.root u)) := by
        intro σ τ r hR hx
        obtain ⟨τ1, m1, m2, m3⟩ := hp.run σ τ hR
        rw [hr] at m3
        have hx : ExecT O τ1 (.embed a' f g args') r := by
          rcases hx.split with ⟨τ2, k1, k2⟩ | ⟨e, rfl, k2⟩
          · have := m1.det (fun s h => (hp.pure s h).free) k1
            cases this
            exact k2.of_one
          · have := m1.det (fun s h => (hp.pure s h).free) k2
            cases this
        cases hl : evalL σ.env args with
        | error e => exact .inl ⟨e, .argsFault hl⟩
        | ok vs =>
          have hl' := hev m2 hl
          cases hx with
          | embed g1 g2 g3 g4 g5 =>
            rw [hl'] at g1
            cases g1
            rename_i v t u
            cases hu : setA σ.env a v with
            | error e => exact .inl ⟨e, .embedLhsFault hl (hty ▸ g2) g3 g4 hu⟩
            | ok u' =>
              have := propA_set hC m2.env h1 wa m3 hu
              rw [g5] at this
              cases this
              exact .inr ⟨u, τ1, by rw [hr], m2, .embed hl (hty ▸ g2) g3 g4 hu⟩
          | argsFault g1 => rw [hl'] at g1; cases g1
          | embedFault g1 g2 =>
            rw [hl'] at g1
            cases g1
            exact .inl ⟨_, .embedFault hl g2⟩
          | embedLhsFault g1 g2 g3 g4 g5 =>
            rw [hl'] at g1
            cases g1
            rename_i v t f
            cases hu : setA σ.env a v with
            | error e => exact .inl ⟨e, .embedLhsFault hl (hty ▸ g2) g3 g4 hu⟩
            | ok u' =>
              have := propA_set hC m2.env h1 wa m3 hu
              rw [g5] at this
              cases this
      refine ⟨?_, ?_, ?_, fun _ _ _ _ _ h => by cases h⟩
      · intro _ σ τ σ' hR hx
        obtain ⟨τ1, m1, m2, m3⟩ := hp.run σ τ hR
        rw [hr] at m3
        cases hx with
        | @embed _ _ _ _ vs v t0 u hv g2 g3 g4 g5 =>
          refine ⟨τ1.set a.root u, m1.append (.one ?_), by rw [hr]; exact m2.remove a.root u⟩
          rw [← hr]
          exact .embed (hev m2 hv) (by rw [hty]; exact g2) g3 g4 (propA_set hC m2.env h1 wa m3 g5)
      · intro _ σ τ τ' hR hx
        rcases back hR hx with h | ⟨u, τ1, k1, k2, k3⟩
        · exact .inr h
        · cases k1
          rw [hr]
          exact .inl ⟨_, k3, k2.remove a.root u⟩
      · intro _ σ τ e hR hx
        rcases back hR hx with h | ⟨u, τ1, k1, k2, k3⟩
        · exact h
        · cases k1

/-- The folded statements are well-typed. -/
theorem propStmt_typed (hC : GoodC C) {t : CType} {s : TStmt (ZMod p)} {ss : List (TStmt (ZMod p))} (hw : s.Wt t) (hA : s.ArgsTyped) (h : propStmt C s = .ok (C', ss)) :
    GoodC C' ∧ (∀ s' ∈ ss, s'.Wt t ∧ s'.ArgsTyped) := by
  have inv : ∀ {a a' : TAssignee (ZMod p)} {s'}, propA C a = .ok a' → a.Wt → s'.Wt t → s'.ArgsTyped → ∀ {C' ss}, invalidate C a' s' = .ok (C', ss) → GoodC C' ∧
      (∀ s' ∈ ss, s'.Wt t ∧ s'.ArgsTyped) := by
    intro a a' s' ha wa ws as C' ss h
    obtain ⟨wa', -, -, -⟩ := propA_typed hC ha wa
    obtain ⟨rfl, pre, rfl, -, hp⟩ := invalidate_inv (O := Oracle.any p Unit) h
    refine ⟨goodC_remove hC, fun s hs => ?_⟩
    rcases List.mem_append.mp hs with hs | hs
    · rcases hp with rfl | ⟨c, k1, k2, rfl⟩
      · simp at hs
      · simp only [List.mem_singleton] at hs
        subst hs
        exact ⟨⟨by rw [TAssignee.ty, k2], rootTy_ok wa', (hC _ _ k1).wt⟩, trivial⟩
    · simp only [List.mem_singleton] at hs
      subst hs
      exact ⟨ws, as⟩
  have con : ∀ {a a' : TAssignee (ZMod p)} {e'} {once}, propA C a = .ok a' → a.Wt → e'.Wt → a.ty = some e'.ty → ∀ {C' ss}, assignConst C once a' e' = .ok (C', ss) →
      GoodC C' ∧ (∀ s' ∈ ss, s'.Wt t ∧ s'.ArgsTyped) := by
    intro a a' e' once ha wa we ht C' ss h
    obtain ⟨wa', hty, -, -⟩ := propA_typed hC ha wa
    rcases assignConst_inv hC we (by rw [hty, ht]) h with ⟨c, rfl, rfl, gc, -⟩ | h
    · exact ⟨goodC_insert hC gc, by simp⟩
    · exact inv ha wa (show TStmt.Wt t (.definition a' e') from ⟨by rw [hty, ht], wa', we⟩) trivial h
  cases s with
  | ret e =>
    simp only [propStmt] at h
    obtain ⟨e', h1, h⟩ := pbind_ok h
    cases h
    have te := propT_typed hC e e' h1 hw.2
    refine ⟨hC, fun s hs => ?_⟩
    simp only [List.mem_singleton] at hs
    subst hs
    exact ⟨⟨te.1.trans hw.1, te.2.1⟩, trivial⟩
  | definition a e =>
    simp only [propStmt] at h
    obtain ⟨a', h1, h⟩ := pbind_ok h
    obtain ⟨e', h2, h⟩ := pbind_ok h
    obtain ⟨hty, h⟩ := propDef_inv h
    have te := propT_typed hC e e' h2 hw.2.2
    have ht' : a.ty = some e'.ty := by rw [hw.1, te.1]
    rcases h with h | h
    · exact con h1 hw.2.1 te.2.1 ht' h
    · exact inv h1 hw.2.1 (show TStmt.Wt t (.definition a' e') from ⟨hty, (propA_typed hC h1 hw.2.1).1, te.2.1⟩) trivial h
  | assertion e err =>
    simp only [propStmt] at h
    obtain ⟨e', h1, h⟩ := pbind_ok h
    have te := propT_typed hC e e' h1 hw.2
    split at h
    · cases h
    · cases h
      exact ⟨hC, by simp⟩
    · cases h
      refine ⟨hC, fun s hs => ?_⟩
      simp only [List.mem_singleton] at hs
      subst hs
      exact ⟨⟨te.1.trans hw.1, te.2.1⟩, trivial⟩
  | log es =>
    simp only [propStmt] at h
    obtain ⟨e', h1, h⟩ := pbind_ok h
    cases h
    refine ⟨hC, fun s hs => ?_⟩
    simp only [List.mem_singleton] at hs
    subst hs
    exact ⟨(propL_typed hC es e' h1 hw).2.1, trivial⟩
  | embed a f g args =>
    simp only [propStmt] at h
    obtain ⟨a', h1, h⟩ := pbind_ok h
    obtain ⟨args', h2, h⟩ := pbind_ok h
    obtain ⟨r, h3, h⟩ := pbind_ok h
    obtain ⟨⟨t', ht1, ht2⟩, wa, wl⟩ := hw
    obtain ⟨ty', wl', -⟩ := propL_typed hC args args' h2 wl
    obtain ⟨wa', hty, -, -⟩ := propA_typed hC h1 wa
    have hA' : embedArgs f g (args'.map TExpr.ty) := by rw [ty']; exact hA
    cases r with
    | some e =>
      have h3 : foldEmbed f g args' = .ok (some e) := by
        simp only [foldCall] at h3
        split at h3
        · exact h3
        · cases h3
      obtain ⟨ge, gt, -⟩ := foldEmbed_some (Z := Unit) h3 wl' hA' ht1
      exact con h1 wa ge.wt (by rw [ht2, gt]) h
    | none => exact inv h1 wa (show TStmt.Wt t (.embed a' f g args') from ⟨⟨t', ht1, by rw [hty, ht2]⟩, wa', wl'⟩) hA' h

/-- If the pass detects an error, the statement does not succeed. -/
theorem propStmt_rejected (hC : GoodC C) {t : CType} {s : TStmt (ZMod p)} {er : PErr} (hw : s.Wt t) (hO : s.UnpackOnly O) (h : propStmt C s = .error er)
    (hd : er.Detected) {σ σ' : TState p} (hR : RelC C σ σ) : ¬ ExecT O σ s (.ok σ') := by
  intro hx
  have kl : ∀ {α : Type} {P : α → Prop} {x : Except PErr α}, KeepsL P x → x ≠ .error er := by
    rintro α P x hk rfl
    exact hk hd
  cases s with
  | ret e =>
    cases hx with
    | ret hv =>
      simp only [propStmt] at h
      rcases perr_bind h with h | ⟨_, _, h⟩
      · exact kl (keeps_L (propT_keeps hC hR.env e _ hw.2 hv)) h
      · cases h
  | definition a e =>
    cases hx with
    | definition hv hu =>
      simp only [propStmt] at h
      rcases perr_bind h with h | ⟨a', ha, h⟩
      · exact kl (propA_keeps hC hR.env hw.2.1 hu) h
      rcases perr_bind h with h | ⟨e', he, h⟩
      · exact kl (keeps_L (propT_keeps hC hR.env e _ hw.2.2 hv)) h
      simp only [propDef] at h
      split at h
      · cases h; exact hd
      · split at h
        · cases h; exact hd
        · split at h
          · exact assignConst_undetected h hd
          · exact invalidate_undetected h hd
  | assertion e err =>
    cases hx with
    | assertOk hv =>
      simp only [propStmt] at h
      rcases perr_bind h with h | ⟨e', he, h⟩
      · exact kl (keeps_L (propT_keeps hC hR.env e _ hw.2 hv)) h
      split at h
      · rename_i hb
        have := propT_eval hC hR.env hw.2 he hv
        rw [litB_some hb] at this
        simp only [evalT] at this
        cases this
      · cases h
      · cases h
  | log es =>
    cases hx with
    | log hv =>
      simp only [propStmt] at h
      rcases perr_bind h with h | ⟨_, _, h⟩
      · exact kl (propL_keeps hC hR.env es _ hw hv) h
      · cases h
  | embed a f g args =>
    cases hx with
    | embed hv g2 g3 g4 g5 =>
      obtain ⟨⟨t', ht1, ht2⟩, wa, wl⟩ := hw
      simp only [propStmt] at h
      rcases perr_bind h with h | ⟨a', ha, h⟩
      · exact kl (propA_keeps hC hR.env wa g5) h
      rcases perr_bind h with h | ⟨args', hl, h⟩
      · exact kl (propL_keeps hC hR.env args _ wl hv) h
      rcases perr_bind h with h | ⟨r, hr, h⟩
      · simp only [foldCall] at h
        split at h
        · exact foldEmbed_error hO h (propL_eval hC hR.env wl hl hv) g4 hd
        · cases h
      · cases r with
        | some e => exact assignConst_undetected h hd
        | none => exact invalidate_undetected h hd

/-! ### Lists of statements -/

theorem propStmts_typed {t : CType} : ∀ {ss ts : List (TStmt (ZMod p))} {C : Consts (ZMod p)}, GoodC C → (∀ s ∈ ss, s.Wt t ∧ s.ArgsTyped) → propStmts C ss = .ok ts →
    ∀ s ∈ ts, s.Wt t ∧ s.ArgsTyped
  | [], ts, C, hC, hw, h => by simp only [propStmts] at h; cases h; simp
  | s :: ss, ts, C, hC, hw, h => by
    simp only [propStmts] at h
    obtain ⟨⟨C', s'⟩, h1, h⟩ := pbind_ok h
    obtain ⟨ts', h2, h⟩ := pbind_ok h
    cases h
    obtain ⟨g1, g2⟩ := propStmt_typed hC (hw s (by simp)).1 (hw s (by simp)).2 h1
    intro x hx
    rcases List.mem_append.mp hx with hx | hx
    · exact g2 x hx
    · exact propStmts_typed g1 (fun s hs => hw s (by simp [hs])) h2 x hx

theorem propStmts_fwd {t : CType} : ∀ {ss ts : List (TStmt (ZMod p))} {C : Consts (ZMod p)}, GoodC C → (∀ s ∈ ss, s.Wt t ∧ s.ArgsTyped) → (∀ s ∈ ss, s.UnpackOnly O) →
    propStmts C ss = .ok ts → ∀ σ τ σ', RelC C σ τ → ExecTs O σ ss (.ok σ') → ∃ τ' C', ExecTs O τ ts (.ok τ') ∧ RelC C' σ' τ'
  | [], ts, C, hC, hw, hO, h => by
    simp only [propStmts] at h
    cases h
    intro σ τ σ' hR hx
    cases hx
    exact ⟨τ, C, .nil, hR⟩
  | s :: ss, ts, C, hC, hw, hO, h => by
    simp only [propStmts] at h
    obtain ⟨⟨C', s'⟩, h1, h⟩ := pbind_ok h
    obtain ⟨ts', h2, h⟩ := pbind_ok h
    cases h
    obtain ⟨g1, g2⟩ := propStmt_typed hC (hw s (by simp)).1 (hw s (by simp)).2 h1
    have st := propStmt_step (O := O) hC (hw s (by simp)).1 (hw s (by simp)).2 h1
    intro σ τ σ' hR hx
    cases hx with
    | cons k1 k2 =>
      obtain ⟨τ1, m1, m2⟩ := st.fwd (hO s (by simp)) _ _ _ hR k1
      obtain ⟨τ2, C2, m3, m4⟩ := propStmts_fwd g1 (fun s hs => hw s (by simp [hs])) (fun s hs => hO s (by simp [hs])) h2 _ _ _ m2 k2
      exact ⟨τ2, C2, m1.append m3, m4⟩

theorem propStmts_bwd {t : CType} : ∀ {ss ts : List (TStmt (ZMod p))} {C : Consts (ZMod p)}, GoodC C → (∀ s ∈ ss, s.Wt t ∧ s.ArgsTyped) → (∀ s ∈ ss, s.UnpackSome O) →
    propStmts C ss = .ok ts → ∀ σ τ, RelC C σ τ → (∀ τ', ExecTs O τ ts (.ok τ') → (∃ σ' C', ExecTs O σ ss (.ok σ') ∧ RelC C' σ' τ') ∨ ∃ e, ExecTs O σ ss (.error e)) ∧
      ∀ e, ExecTs O τ ts (.error e) → ∃ e', ExecTs O σ ss (.error e')
  | [], ts, C, hC, hw, hO, h => by
    simp only [propStmts] at h
    cases h
    intro σ τ hR
    refine ⟨fun τ' hx => ?_, fun e hx => ?_⟩
    · cases hx
      exact .inl ⟨σ, C, .nil, hR⟩
    · cases hx
  | s :: ss, ts, C, hC, hw, hO, h => by
    simp only [propStmts] at h
    obtain ⟨⟨C', s'⟩, h1, h⟩ := pbind_ok h
    obtain ⟨ts', h2, h⟩ := pbind_ok h
    cases h
    obtain ⟨g1, g2⟩ := propStmt_typed hC (hw s (by simp)).1 (hw s (by simp)).2 h1
    have st := propStmt_step (O := O) hC (hw s (by simp)).1 (hw s (by simp)).2 h1
    have ih := propStmts_bwd g1 (fun s hs => hw s (by simp [hs])) (fun s hs => hO s (by simp [hs])) h2
    intro σ τ hR
    refine ⟨fun τ' hx => ?_, fun e hx => ?_⟩
    · rcases hx.split with ⟨τ1, k1, k2⟩ | ⟨e, k1, k2⟩
      · rcases st.bwd (hO s (by simp)) _ _ _ hR k1 with ⟨σ1, m1, m2⟩ | ⟨e, m1⟩
        · rcases (ih _ _ m2).1 _ k2 with ⟨σ2, C2, m3, m4⟩ | ⟨e, m3⟩
          · exact .inl ⟨σ2, C2, .cons m1 m3, m4⟩
          · exact .inr ⟨e, .cons m1 m3⟩
        · exact .inr ⟨e, .fault m1⟩
      · cases k1
    · rcases hx.split with ⟨τ1, k1, k2⟩ | ⟨e, k1, k2⟩
      · rcases st.bwd (hO s (by simp)) _ _ _ hR k1 with ⟨σ1, m1, m2⟩ | ⟨e, m1⟩
        · obtain ⟨e', m3⟩ := (ih _ _ m2).2 _ k2
          exact ⟨e', .cons m1 m3⟩
        · exact ⟨e, .fault m1⟩
      · obtain ⟨e', m1⟩ := st.err (hO s (by simp)) _ _ _ hR k2
        exact ⟨e', .fault m1⟩

theorem propStmts_asr {t : CType} {e : TExpr (ZMod p)} {err : RuntimeError} {post : List (TStmt (ZMod p))} : ∀ {pre ts : List (TStmt (ZMod p))} {C : Consts (ZMod p)}, GoodC C →
    (∀ s ∈ pre ++ .assertion e err :: post, s.Wt t ∧ s.ArgsTyped) → (∀ s ∈ pre, s.UnpackOnly O) →
    propStmts C (pre ++ .assertion e err :: post) = .ok ts → ∀ σ τ σ', RelC C σ τ → ExecTs O σ pre (.ok σ') → evalT σ'.env e = .ok (.bool false) →
    ∃ pre' e' err' post' τ', ts = pre' ++ .assertion e' err' :: post' ∧ ExecTs O τ pre' (.ok τ') ∧ evalT τ'.env e' = .ok (.bool false)
  | [], ts, C, hC, hw, hO, h => by
    simp only [List.nil_append, propStmts] at h
    obtain ⟨⟨C', s'⟩, h1, h⟩ := pbind_ok h
    obtain ⟨ts', h2, h⟩ := pbind_ok h
    cases h
    have st := propStmt_step (O := O) hC (hw _ (by simp)).1 (hw _ (by simp)).2 h1
    intro σ τ σ' hR hx he
    cases hx
    obtain ⟨pre', e', err', post', τ', k1, k2, k3⟩ := st.asr _ _ e err hR rfl he
    exact ⟨pre', e', err', post' ++ ts', τ', by rw [k1]; simp, k2, k3⟩
  | s :: ss, ts, C, hC, hw, hO, h => by
    simp only [List.cons_append, propStmts] at h
    obtain ⟨⟨C', s'⟩, h1, h⟩ := pbind_ok h
    obtain ⟨ts', h2, h⟩ := pbind_ok h
    cases h
    obtain ⟨g1, g2⟩ := propStmt_typed hC (hw s (by simp)).1 (hw s (by simp)).2 h1
    have st := propStmt_step (O := O) hC (hw s (by simp)).1 (hw s (by simp)).2 h1
    intro σ τ σ' hR hx he
    cases hx with
    | cons k1 k2 =>
      obtain ⟨τ1, m1, m2⟩ := st.fwd (hO s (by simp)) _ _ _ hR k1
      obtain ⟨pre', e', err', post', τ', n1, n2, n3⟩ := propStmts_asr g1 (fun s hs => hw s (by
        simp only [List.cons_append, List.mem_cons]
        exact .inr hs)) (fun s hs => hO s (by simp [hs])) h2 _ _ _ m2 k2 he
      exact ⟨s' ++ pre', e', err', post', τ', by rw [n1]; simp, m1.append n2, n3⟩

theorem propStmts_rejected {t : CType} {er : PErr} (hd : er.Detected) : ∀ {ss : List (TStmt (ZMod p))} {C : Consts (ZMod p)}, GoodC C → (∀ s ∈ ss, s.Wt t ∧ s.ArgsTyped) →
    (∀ s ∈ ss, s.UnpackOnly O) → propStmts C ss = .error er → ∀ σ σ', RelC C σ σ → ¬ ExecTs O σ ss (.ok σ')
  | [], C, hC, hw, hO, h => by simp only [propStmts] at h; cases h
  | s :: ss, C, hC, hw, hO, h => by
    intro σ σ' hR hx
    cases hx with
    | cons k1 k2 =>
      simp only [propStmts] at h
      rcases perr_bind h with h | ⟨⟨C', s'⟩, h1, h⟩
      · exact propStmt_rejected hC (hw s (by simp)).1 (hO s (by simp)) h hd hR k1
      rcases perr_bind h with h | ⟨ts', h2, h⟩
      · obtain ⟨g1, g2⟩ := propStmt_typed hC (hw s (by simp)).1 (hw s (by simp)).2 h1
        have st := propStmt_step (O := O) hC (hw s (by simp)).1 (hw s (by simp)).2 h1
        obtain ⟨τ1, m1, m2⟩ := st.fwd (hO s (by simp)) _ _ _ hR k1
        exact propStmts_rejected hd g1 (fun s hs => hw s (by simp [hs])) (fun s hs => hO s (by simp [hs])) h _ _ ⟨rfl, m2.env.self⟩ k2
      · cases h

end Zok.Typed
