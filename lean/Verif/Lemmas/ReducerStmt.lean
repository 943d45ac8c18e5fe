import Verif.Lemmas.ReducerSim

/-
The reducer: statements without calls.
-/

set_option linter.unusedSectionVars false
set_option linter.unusedSimpArgs false

namespace Zok.Typed
open Abi
variable {p : ℕ} [Fact p.Prime] {Z : Type} {O : Oracle p Z} {C C' : Consts (ZMod p)}

/-! ### Propagation of lists of statements -/

theorem invalidate_consts {a : TAssignee (ZMod p)} {s : TStmt (ZMod p)} {ss : List (TStmt (ZMod p))} (h : invalidate C a s = .ok (C', ss)) {x : TId} (hx : x ≠ a.root) : C' x = C x := by
  obtain ⟨rfl, -⟩ := invalidate_inv (O := Oracle.any p Unit) h
  simp only [Consts.remove, if_neg hx]

theorem assignConst_consts {once : Bool} {a : TAssignee (ZMod p)} {e : TExpr (ZMod p)} {ss : List (TStmt (ZMod p))} (hC : GoodC C) (he : e.Wt) (ht : a.ty = some e.ty)
    (h : assignConst C once a e = .ok (C', ss)) {x : TId} (hx : x ≠ a.root) : C' x = C x := by
  rcases assignConst_inv hC he ht h with ⟨c, -, rfl, -⟩ | h
  · simp only [Consts.insert, if_neg hx]
  · exact invalidate_consts h hx

/-- Only the constants of assigned variables change. -/
theorem propStmt_consts (hC : GoodC C) {t : CType} {s : TStmt (ZMod p)} {ss : List (TStmt (ZMod p))} (hw : s.Wt t) (hA : s.ArgsTyped) (h : propStmt C s = .ok (C', ss))
    {x : TId} (hx : x ∉ s.assigns) : C' x = C x := by
  cases s with
  | ret e =>
    simp only [propStmt] at h
    obtain ⟨e', h1, h⟩ := pbind_ok h
    cases h
    rfl
  | assertion e err =>
    simp only [propStmt] at h
    obtain ⟨e', h1, h⟩ := pbind_ok h
    split at h
    · cases h
    · cases h; rfl
    · cases h; rfl
  | log es =>
    simp only [propStmt] at h
    obtain ⟨e', h1, h⟩ := pbind_ok h
    cases h
    rfl
  | definition a e =>
    simp only [propStmt] at h
    obtain ⟨a', h1, h⟩ := pbind_ok h
    obtain ⟨e', h2, h⟩ := pbind_ok h
    obtain ⟨hty, h⟩ := propDef_inv h
    have te := propT_typed hC e e' h2 hw.2.2
    obtain ⟨-, -, hr, -⟩ := propA_typed hC h1 hw.2.1
    simp only [TStmt.assigns, List.mem_singleton, ← hr] at hx
    rcases h with h | h
    · exact assignConst_consts hC te.2.1 hty h hx
    · exact invalidate_consts h hx
  | embed a f g args =>
    simp only [propStmt] at h
    obtain ⟨a', h1, h⟩ := pbind_ok h
    obtain ⟨args', h2, h⟩ := pbind_ok h
    obtain ⟨r, h3, h⟩ := pbind_ok h
    obtain ⟨⟨t', ht1, ht2⟩, wa, wl⟩ := hw
    obtain ⟨ty', wl', -⟩ := propL_typed hC args args' h2 wl
    obtain ⟨-, hty, hr, -⟩ := propA_typed hC h1 wa
    simp only [TStmt.assigns, List.mem_singleton, ← hr] at hx
    cases r with
    | some e =>
      have h3 : foldEmbed f g args' = .ok (some e) := by
        simp only [foldCall] at h3
        split at h3
        · exact h3
        · cases h3
      obtain ⟨ge, gt, -⟩ := foldEmbed_some (Z := Unit) h3 wl' (by rw [ty']; exact hA) ht1
      exact assignConst_consts hC ge.wt (by rw [hty, ht2, gt]) h hx
    | none => exact invalidate_consts h hx

/-- What is kept of a list of statements. -/
structure MOk (t : CType) (C C' : Consts (ZMod p)) (ss ts : List (TStmt (ZMod p))) : Prop where
  good : GoodC C'
  wt : ∀ s ∈ ts, s.Wt t ∧ s.ArgsTyped
  shape : ∀ s' ∈ ts, ∃ s ∈ ss, Shape s s'
  consts : ∀ x, (∀ s ∈ ss, x ∉ s.assigns) → C' x = C x
  pure : (∀ s ∈ ss, s.Pure) → ∀ s ∈ ts, s.Pure

theorem propStmt_mok (hC : GoodC C) {t : CType} {s : TStmt (ZMod p)} {ss : List (TStmt (ZMod p))} (hw : s.Wt t) (hA : s.ArgsTyped) (h : propStmt C s = .ok (C', ss)) :
    MOk t C C' [s] ss := by
  obtain ⟨g1, g2⟩ := propStmt_typed hC hw hA h
  obtain ⟨g3, -, g4⟩ := propStmt_shape hC hw hA h
  refine ⟨g1, g2, fun s' hs => ⟨s, by simp, g3 s' hs⟩, fun x hx => propStmt_consts hC hw hA h (hx s (by simp)), fun hp => ?_⟩
  rcases g4 with g4 | ⟨a, f, g, args, rfl, -⟩
  · exact g4
  · exact (hp (.embed a f g args) (by simp)).elim

theorem propMany_mok {t : CType} : ∀ {ss ts : List (TStmt (ZMod p))} {C C' : Consts (ZMod p)}, GoodC C → (∀ s ∈ ss, s.Wt t ∧ s.ArgsTyped) → propMany C ss = .ok (C', ts) →
    MOk t C C' ss ts
  | [], ts, C, C', hC, hw, h => by
    simp only [propMany] at h
    cases h
    exact ⟨hC, by simp, by simp, fun _ _ => rfl, by simp⟩
  | s :: ss, ts, C, C', hC, hw, h => by
    simp only [propMany] at h
    obtain ⟨⟨C1, s'⟩, h1, h⟩ := rbind_ok h
    obtain ⟨⟨C2, ts'⟩, h2, h⟩ := rbind_ok h
    cases h
    have m1 := propStmt_mok hC (hw s (by simp)).1 (hw s (by simp)).2 (liftP_ok h1)
    have m2 := propMany_mok m1.good (fun s hs => hw s (by simp [hs])) h2
    refine ⟨m2.good, fun x hx => ?_, fun x hx => ?_, fun x hx => ?_, fun hp x hx => ?_⟩
    · rcases List.mem_append.mp hx with hx | hx
      · exact m1.wt x hx
      · exact m2.wt x hx
    · rcases List.mem_append.mp hx with hx | hx
      · obtain ⟨s0, k1, k2⟩ := m1.shape x hx
        simp only [List.mem_singleton] at k1
        subst k1
        exact ⟨s0, by simp, k2⟩
      · obtain ⟨s0, k1, k2⟩ := m2.shape x hx
        exact ⟨s0, by simp [k1], k2⟩
    · show C2 x = C x
      rw [m2.consts x fun s hs => hx s (by simp [hs]), m1.consts x fun s hs => hx s (by simp at hs; simp [hs])]
    · rcases List.mem_append.mp hx with hx | hx
      · exact m1.pure (fun s hs => hp s (by simp at hs; simp [hs])) x hx
      · exact m2.pure (fun s hs => hp s (by simp [hs])) x hx

theorem TStmt.Pure.only {s : TStmt (ZMod p)} (h : s.Pure) : s.UnpackOnly O := by cases s <;> simp_all [TStmt.Pure, TStmt.UnpackOnly]

theorem propMany_fwd {t : CType} : ∀ {ss ts : List (TStmt (ZMod p))} {C C' : Consts (ZMod p)}, GoodC C → (∀ s ∈ ss, s.Wt t ∧ s.ArgsTyped) → (∀ s ∈ ss, s.Pure) →
    propMany C ss = .ok (C', ts) → ∀ σ τ σ', RelC C σ τ → ExecTs O σ ss (.ok σ') → ∃ τ', ExecTs O τ ts (.ok τ') ∧ RelC C' σ' τ'
  | [], ts, C, C', hC, hw, hO, h => by
    simp only [propMany] at h
    cases h
    intro σ τ σ' hR hx
    cases hx
    exact ⟨τ, .nil, hR⟩
  | s :: ss, ts, C, C', hC, hw, hO, h => by
    simp only [propMany] at h
    obtain ⟨⟨C1, s'⟩, h1, h⟩ := rbind_ok h
    obtain ⟨⟨C2, ts'⟩, h2, h⟩ := rbind_ok h
    cases h
    have h1 := liftP_ok h1
    obtain ⟨g1, g2⟩ := propStmt_typed hC (hw s (by simp)).1 (hw s (by simp)).2 h1
    have st := propStmt_step (O := O) hC (hw s (by simp)).1 (hw s (by simp)).2 h1
    intro σ τ σ' hR hx
    cases hx with
    | cons k1 k2 =>
      obtain ⟨τ1, m1, m2⟩ := st.fwd (hO s (by simp)).only _ _ _ hR k1
      obtain ⟨τ2, m3, m4⟩ := propMany_fwd g1 (fun s hs => hw s (by simp [hs])) (fun s hs => hO s (by simp [hs])) h2 _ _ _ m2 k2
      exact ⟨τ2, m1.append m3, m4⟩

/-! ### Slices in assignees and statements -/

/-- The fold of an assignee. -/
structure KeepA (C : Consts (ZMod p)) (a a' : TAssignee (ZMod p)) : Prop where
  wt : a'.Wt
  ty : a'.ty = a.ty
  root : a'.root = a.root
  rootTy : a'.rootTy = a.rootTy
  vars : ∀ y ∈ varsL a'.indices, y ∈ varsL a.indices
  get : ∀ env v, EnvRel C env env → getA env a = .ok v → getA env a' = .ok v
  set : ∀ env v u, EnvRel C env env → setA env a v = .ok u → setA env a' v = .ok u

theorem sliceA_ok {V : Vers} {fr k : ℕ} (hC : GoodC C) : ∀ {a a' : TAssignee (ZMod p)}, sliceA (partF V fr C k) a = .ok a' → a.Wt → (∀ x ∈ varsL a.indices, Cur V fr x) → KeepA C a a'
  | .ident x t, a', h, w, hv => by
    simp only [sliceA] at h
    cases h
    exact ⟨w, rfl, rfl, rfl, fun _ h => h, fun _ _ _ h => h, fun _ _ _ _ h => h⟩
  | .select a i, a', h, w, hv => by
    simp only [sliceA] at h
    obtain ⟨b, h1, h⟩ := rbind_ok h
    obtain ⟨j, h2, h⟩ := rbind_ok h
    cases h
    simp only [TAssignee.indices, varsL_append, List.mem_append, varsL, List.append_nil] at hv
    obtain ⟨⟨n, t, w1⟩, w2, w3, w4⟩ := w
    have ka := sliceA_ok hC h1 w4 fun x hx => hv x (.inl hx)
    have ki := sliceT_ok hC w3 (.inr fun x hx => hv x (.inr hx)) h2
    have sel : ∀ {env : TEnv p}, EnvRel C env env → ∀ {β : Type} {f : List (AVal (ZMod p)) → ℕ → Except Fault β} {v}, ((getA env a).bind asArray).bind (fun vs =>
        ((evalT env i).bind (asUint .b32)).bind fun k => f vs k) = .ok v → ((getA env b).bind asArray).bind (fun vs => ((evalT env j).bind (asUint .b32)).bind fun k => f vs k) = .ok v := by
      intro env hE β f v h
      obtain ⟨vs, g1, h⟩ := bind_ok h
      obtain ⟨n, g2, h⟩ := bind_ok h
      obtain ⟨va, g1, g3⟩ := bind_ok g1
      obtain ⟨vi, g2, g4⟩ := bind_ok g2
      simp only [ka.get _ _ hE g1, ki.val _ _ hE g2, Except.bind, g3, g4]
      exact h
    refine ⟨⟨⟨n, t, by rw [ka.ty, w1]⟩, ki.typ.1.trans w2, ki.typ.2.1, ka.wt⟩, by simp only [TAssignee.ty, ka.ty], by simp only [TAssignee.root, ka.root],
      by simp only [TAssignee.rootTy, ka.rootTy], fun y hy => ?_, fun env v hE h => ?_, fun env v u hE h => ?_⟩
    · simp only [TAssignee.indices, varsL_append, List.mem_append, varsL, List.append_nil] at hy ⊢
      exact hy.imp (ka.vars y) (ki.typ.2.2 y)
    · simp only [getA] at h ⊢
      exact sel hE h
    · simp only [setA] at h ⊢
      have h := sel hE h
      obtain ⟨vs, g1, h⟩ := bind_ok h
      obtain ⟨n, g2, h⟩ := bind_ok h
      show ((getA env b).bind asArray).bind _ = _
      rw [g1]
      show ((evalT env j).bind _).bind _ = _
      rw [g2]
      show (if _ then _ else _) = _
      split at h
      · rw [if_pos (by assumption)]
        exact ka.set _ _ _ hE h
      · cases h
  | .member a m, a', h, w, hv => by
    simp only [sliceA] at h
    obtain ⟨b, h1, h⟩ := rbind_ok h
    cases h
    obtain ⟨⟨ms, t, w1, w2⟩, w4⟩ := w
    have ka := sliceA_ok hC h1 w4 hv
    refine ⟨⟨⟨ms, t, by rw [ka.ty, w1], w2⟩, ka.wt⟩, by simp only [TAssignee.ty, ka.ty], by simp only [TAssignee.root, ka.root],
      by simp only [TAssignee.rootTy, ka.rootTy], ka.vars, fun env v hE h => ?_, fun env v u hE h => ?_⟩
    · simp only [getA] at h ⊢
      obtain ⟨vs, g1, h⟩ := bind_ok h
      show (getA env b).bind _ = _
      rw [ka.get _ _ hE g1]
      exact h
    · simp only [setA] at h ⊢
      obtain ⟨vs, g1, h⟩ := bind_ok h
      show (getA env b).bind _ = _
      rw [ka.get _ _ hE g1]
      cases vs with
      | struct ms => exact ka.set _ _ _ hE h
      | _ => cases h
  | .element a m, a', h, w, hv => by
    simp only [sliceA] at h
    obtain ⟨b, h1, h⟩ := rbind_ok h
    cases h
    obtain ⟨⟨ms, t, w1, w2⟩, w4⟩ := w
    have ka := sliceA_ok hC h1 w4 hv
    refine ⟨⟨⟨ms, t, by rw [ka.ty, w1], w2⟩, ka.wt⟩, by simp only [TAssignee.ty, ka.ty], by simp only [TAssignee.root, ka.root],
      by simp only [TAssignee.rootTy, ka.rootTy], ka.vars, fun env v hE h => ?_, fun env v u hE h => ?_⟩
    · simp only [getA] at h ⊢
      obtain ⟨vs, g1, h⟩ := bind_ok h
      show (getA env b).bind _ = _
      rw [ka.get _ _ hE g1]
      exact h
    · simp only [setA] at h ⊢
      obtain ⟨vs, g1, h⟩ := bind_ok h
      show (getA env b).bind _ = _
      rw [ka.get _ _ hE g1]
      cases vs with
      | tuple ms => exact ka.set _ _ _ hE h
      | _ => cases h

/-- Statements whose slices the reducer folds correctly. -/
def TStmt.SliceOk (V : Vers) (fr : ℕ) : TStmt (ZMod p) → Prop
  | .ret e | .assertion e _ => Typed.SliceOk V fr e
  | .definition a e => (∀ x ∈ varsL a.indices, Cur V fr x) ∧ Typed.SliceOk V fr e
  | .log es => ∀ e ∈ es, Typed.SliceOk V fr e
  | .embed _ _ _ _ => False

theorem sliceL_ok {V : Vers} {fr k : ℕ} (hC : GoodC C) : ∀ {es es' : List (TExpr (ZMod p))}, sliceL (partF V fr C k) es = .ok es' → WtL es → (∀ e ∈ es, SliceOk V fr e) →
    WtL es' ∧ (∀ y ∈ varsL es', y ∈ varsL es) ∧ ∀ env vs, EnvRel C env env → evalL env es = .ok vs → evalL env es' = .ok vs
  | [], es', h, w, hv => by simp only [sliceL] at h; cases h; exact ⟨trivial, fun _ h => h, fun _ _ _ h => h⟩
  | e :: es, es', h, w, hv => by
    simp only [sliceL] at h
    obtain ⟨l', h1, h⟩ := rbind_ok h
    obtain ⟨r', h2, h⟩ := rbind_ok h
    cases h
    have k1 := sliceT_ok hC w.1 (hv e (by simp)) h1
    obtain ⟨k2, k3, k4⟩ := sliceL_ok hC h2 w.2 fun e he => hv e (by simp [he])
    refine ⟨⟨k1.typ.2.1, k2⟩, fun y hy => ?_, fun env vs hE h => ?_⟩
    · simp only [varsL, List.mem_append] at hy ⊢
      exact hy.imp (k1.typ.2.2 y) (k3 y)
    · simp only [evalL] at h ⊢
      obtain ⟨v, g1, h⟩ := bind_ok h
      obtain ⟨vs', g2, h⟩ := bind_ok h
      cases h
      rw [k1.val _ _ hE g1]
      show (evalL env r').bind _ = _
      rw [k4 _ _ hE g2]
      rfl

/-- The fold of a statement. -/
structure KeepSt (O : Oracle p Z) (t : CType) (C : Consts (ZMod p)) (s s' : TStmt (ZMod p)) : Prop where
  wt : s'.Wt t ∧ s'.ArgsTyped
  pure : s'.Pure
  assigns : s'.assigns = s.assigns
  vars : ∀ y ∈ s'.vars, y ∈ s.vars
  noRet : s.NoRet → s'.NoRet
  fwd : ∀ σ σ', EnvRel C σ.env σ.env → ExecT O σ s (.ok σ') → ExecT O σ s' (.ok σ')

theorem sliceStmt_ok {V : Vers} {fr k : ℕ} {t : CType} {s s' : TStmt (ZMod p)} (hC : GoodC C) (hw : s.Wt t) (hs : s.SliceOk V fr) (h : sliceStmt (partF V fr C k) s = .ok s') :
    KeepSt O t C s s' := by
  cases s with
  | ret e =>
    simp only [sliceStmt] at h
    obtain ⟨e', h1, h⟩ := rbind_ok h
    cases h
    have k := sliceT_ok hC hw.2 hs h1
    refine ⟨⟨⟨k.typ.1.trans hw.1, k.typ.2.1⟩, trivial⟩, trivial, rfl, k.typ.2.2, fun h => h, fun σ σ' hE hx => ?_⟩
    cases hx with
    | ret hv => exact .ret (k.val _ _ hE hv)
  | assertion e err =>
    simp only [sliceStmt] at h
    obtain ⟨e', h1, h⟩ := rbind_ok h
    cases h
    have k := sliceT_ok hC hw.2 hs h1
    refine ⟨⟨⟨k.typ.1.trans hw.1, k.typ.2.1⟩, trivial⟩, trivial, rfl, k.typ.2.2, fun h => h, fun σ σ' hE hx => ?_⟩
    cases hx with
    | assertOk hv => exact .assertOk (k.val _ _ hE hv)
  | log es =>
    simp only [sliceStmt] at h
    obtain ⟨e', h1, h⟩ := rbind_ok h
    cases h
    obtain ⟨k1, k2, k3⟩ := sliceL_ok hC h1 hw hs
    refine ⟨⟨k1, trivial⟩, trivial, rfl, k2, fun h => h, fun σ σ' hE hx => ?_⟩
    cases hx with
    | log hv => exact .log (k3 _ _ hE hv)
  | definition a e =>
    simp only [sliceStmt] at h
    obtain ⟨e', h1, h⟩ := rbind_ok h
    obtain ⟨a', h2, h⟩ := rbind_ok h
    cases h
    have k := sliceT_ok hC hw.2.2 hs.2 h1
    have ka := sliceA_ok hC h2 hw.2.1 hs.1
    refine ⟨⟨⟨by rw [ka.ty, hw.1, k.typ.1], ka.wt, k.typ.2.1⟩, trivial⟩, trivial, by simp only [TStmt.assigns, ka.root], fun y hy => ?_, fun h => h, fun σ σ' hE hx => ?_⟩
    · simp only [TStmt.vars, TAssignee.vars, List.mem_append, List.mem_cons, ka.root] at hy ⊢
      rcases hy with hy | hy | hy
      · exact .inl (k.typ.2.2 y hy)
      · exact .inr (.inl hy)
      · exact .inr (.inr (ka.vars y hy))
    · cases hx with
      | definition hv hu =>
        rw [← ka.root]
        exact .definition (k.val _ _ hE hv) (ka.set _ _ _ hE hu)
  | embed a f g args => exact hs.elim

/-- All statements: what they assign are not constants. -/
theorem sliceStmts_ok {V : Vers} {fr k : ℕ} {t : CType} (hC : GoodC C) : ∀ {ss ss' : List (TStmt (ZMod p))}, (∀ s ∈ ss, s.Wt t) → (∀ s ∈ ss, s.SliceOk V fr) →
    sliceStmts (partF V fr C k) ss = .ok ss' →
    (∀ s' ∈ ss', ∃ s ∈ ss, KeepSt O t C s s') ∧
    ((∀ s ∈ ss, ∀ x ∈ s.assigns, C x = none) → ∀ σ σ', EnvRel C σ.env σ.env → ExecTs O σ ss (.ok σ') → ExecTs O σ ss' (.ok σ'))
  | [], ss', hw, hs, h => by
    simp only [sliceStmts] at h
    cases h
    exact ⟨by simp, fun _ _ _ _ h => h⟩
  | s :: ss, ss', hw, hs, h => by
    simp only [sliceStmts] at h
    obtain ⟨s', h1, h⟩ := rbind_ok h
    obtain ⟨r', h2, h⟩ := rbind_ok h
    cases h
    have k1 := sliceStmt_ok (O := O) hC (hw s (by simp)) (hs s (by simp)) h1
    obtain ⟨k2, k3⟩ := sliceStmts_ok hC (fun s h => hw s (by simp [h])) (fun s h => hs s (by simp [h])) h2
    refine ⟨fun x hx => ?_, fun hn σ σ' hE hx => ?_⟩
    · simp only [List.mem_cons] at hx
      rcases hx with rfl | hx
      · exact ⟨s, by simp, k1⟩
      · obtain ⟨s0, g1, g2⟩ := k2 x hx
        exact ⟨s0, by simp [g1], g2⟩
    · cases hx with
      | cons g1 g2 =>
        refine .cons (k1.fwd _ _ hE g1) (k3 (fun s h => hn s (by simp [h])) _ _ ⟨fun _ _ => rfl, fun y c hy => ?_⟩ g2)
        rw [g1.frame (fun hx => by rw [hn s (by simp) y hx] at hy; cases hy)]
        exact hE.const y c hy

end Zok.Typed
