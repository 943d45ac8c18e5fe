import Verif.Model.ConditionRedefiner
import Verif.Lemmas.TypedNode
import Verif.Lemmas.TypedPass
import Verif.Lemmas.FlattenTypesStmt
import Verif.Spec.ConditionRedefiner

/-
The redefinition of conditions: an expression has the value it had before, once the statements in the buffer are executed.
-/

set_option linter.unusedSectionVars false
set_option linter.unusedSimpArgs false

namespace Zok.Typed
open Abi
variable {p : ℕ} {Z : Type} [Fact p.Prime] {O : Oracle p Z} {cid : ℕ → TId}

theorem NoCid.left {xs ys : List TId} (h : NoCid cid (xs ++ ys)) : NoCid cid xs := fun x hx => h x (by simp [hx])
theorem NoCid.right {xs ys : List TId} (h : NoCid cid (xs ++ ys)) : NoCid cid ys := fun x hx => h x (by simp [hx])

/-- `ev'`, which reads `vs'`, has the values of `ev`, which reads `vs`, when `b` is executed in front of it. -/
structure Redef (O : Oracle p Z) (cid : ℕ → TId) {α : Type} (n : ℕ) (vs vs' : List TId) (b : List (TStmt (ZMod p))) (ev ev' : TEnv p → Except Fault α) : Prop where
  vars : ∀ x ∈ vs', x ∈ vs ∨ ∃ k, n ≤ k ∧ k < n + b.length ∧ x = cid k
  sim : ∀ (σ : TState p) v, ev σ.env = .ok v → ∃ σ', ExecTs O σ b (.ok σ') ∧ σ'.out = σ.out ∧
    (∀ x, (∀ k, n ≤ k → k < n + b.length → x ≠ cid k) → σ'.env x = σ.env x) ∧ ev' σ'.env = .ok v

/-- Both results. -/
def both {α β : Type} (ev : TEnv p → Except Fault α) (ew : TEnv p → Except Fault β) (env : TEnv p) : Except Fault (α × β) :=
  (ev env).bind fun a => (ew env).bind fun b => .ok (a, b)

theorem both_ok {α β : Type} {ev : TEnv p → Except Fault α} {ew : TEnv p → Except Fault β} {env : TEnv p} {x : α × β} :
    both ev ew env = .ok x ↔ ev env = .ok x.1 ∧ ew env = .ok x.2 := by
  constructor
  · intro h
    obtain ⟨a, h1, h⟩ := bind_ok h
    obtain ⟨b, h2, h⟩ := bind_ok h
    cases h
    exact ⟨h1, h2⟩
  · rintro ⟨h1, h2⟩
    simp only [both, h1, h2, Except.bind]

theorem Redef.nil {α : Type} {n : ℕ} {vs : List TId} {ev : TEnv p → Except Fault α} : Redef O cid n vs vs [] ev ev :=
  ⟨fun _ h => .inl h, fun σ _ h => ⟨σ, .nil, rfl, fun _ _ => rfl, h⟩⟩

theorem Redef.map {α β : Type} {n : ℕ} {vs vs' us us' : List TId} {b : List (TStmt (ZMod p))} {ev ev' : TEnv p → Except Fault α}
    {G G' : TEnv p → Except Fault β} (h : Redef O cid n vs vs' b ev ev') (hv : vs ⊆ us) (hv' : us' ⊆ vs')
    (hm : ∀ env v, G env = .ok v → ∃ x, ev env = .ok x ∧ ∀ env', ev' env' = .ok x → G' env' = .ok v) : Redef O cid n us us' b G G' := by
  refine ⟨fun x hx => (h.vars x (hv' hx)).imp (fun h => hv h) id, fun σ v hG => ?_⟩
  obtain ⟨x, h1, h2⟩ := hm _ _ hG
  obtain ⟨σ', h3, h4, h5, h6⟩ := h.sim σ x h1
  exact ⟨σ', h3, h4, h5, h2 _ h6⟩

/-- The value only depends on the variables in the list. -/
def Reads {α : Type} (vs : List TId) (ev : TEnv p → Except Fault α) : Prop := ∀ env env', (∀ x ∈ vs, env x = env' x) → ev env = ev env'

theorem reads_T (e : TExpr (ZMod p)) : Reads e.vars fun env => evalT env e := fun _ _ h => evalT_congr e h
theorem reads_L (e : List (TExpr (ZMod p))) : Reads (varsL e) fun env => evalL env e := fun _ _ h => evalL_congr e h
theorem reads_S (e : List (TSpread (ZMod p))) : Reads (varsS e) fun env => evalS env e := fun _ _ h => evalS_congr e h

theorem Reads.both {α β : Type} {vs ws : List TId} {ev : TEnv p → Except Fault α} {ew : TEnv p → Except Fault β} (h1 : Reads vs ev) (h2 : Reads ws ew) :
    Reads (vs ++ ws) (both ev ew) := fun env env' h => by
  simp only [Typed.both, h1 env env' fun x hx => h x (by simp [hx]), h2 env env' fun x hx => h x (by simp [hx])]

theorem Redef.pair (hc : Function.Injective cid) {α β : Type} {n : ℕ} {vs vs' ws ws' : List TId} {b c : List (TStmt (ZMod p))}
    {ev ev' : TEnv p → Except Fault α} {ew ew' : TEnv p → Except Fault β} (h1 : Redef O cid n vs vs' b ev ev') (h2 : Redef O cid (n + b.length) ws ws' c ew ew')
    (hf : NoCid cid (vs ++ ws)) (c1 : Reads vs' ev') (c2 : Reads ws ew) :
    Redef O cid n (vs ++ ws) (vs' ++ ws') (b ++ c) (both ev ew) (both ev' ew') := by
  refine ⟨fun x hx => ?_, fun σ v hv => ?_⟩
  · rw [List.length_append]
    rcases List.mem_append.1 hx with hx | hx
    · rcases h1.vars x hx with h | ⟨k, k1, k2, k3⟩
      · exact .inl (by simp [h])
      · exact .inr ⟨k, k1, by omega, k3⟩
    · rcases h2.vars x hx with h | ⟨k, k1, k2, k3⟩
      · exact .inl (by simp [h])
      · exact .inr ⟨k, by omega, by omega, k3⟩
  · obtain ⟨g1, g2⟩ := both_ok.1 hv
    obtain ⟨σ1, e1, o1, f1, r1⟩ := h1.sim σ _ g1
    have g3 : ew σ1.env = .ok v.2 := by rw [← g2]; exact c2 _ _ fun x hx => f1 x fun k _ _ => hf.right x hx k
    obtain ⟨σ2, e2, o2, f2, r2⟩ := h2.sim σ1 _ g3
    refine ⟨σ2, e1.append e2, by rw [o2, o1], fun x hx => ?_, both_ok.2 ⟨?_, r2⟩⟩
    · rw [List.length_append] at hx
      rw [f2 x fun k k1 k2 => hx k (by omega) (by omega), f1 x fun k k1 k2 => hx k (by omega) (by omega)]
    · rw [← r1]
      refine c1 _ _ fun x hx => f2 x fun k k1 k2 he => ?_
      rcases h1.vars x hx with h | ⟨k', k3, k4, k5⟩
      · exact hf.left x h k he
      · have := hc (k5.symm.trans he)
        omega

/-- Expressions which are not changed by the fold of conditions have no conditionals. -/
theorem redefE_uval {n : ℕ} {e : TExpr (ZMod p)} {w : UW} {a : ℕ} (h : (redefE cid n e).1 = .uval w a) : e = .uval w a := by
  cases e <;> simp only [redefE] at h <;> first | exact h | cases h

theorem redefE_isConst {n : ℕ} (e : TExpr (ZMod p)) : (redefE cid n e).1.isConst = e.isConst := by
  cases e with
  | fubin op l r =>
    simp only [redefE]
    cases op with
    | pow =>
      have h : ∀ r : TExpr (ZMod p), (TExpr.fubin FUOp.pow l r).isConst = true ↔ ∃ w, r = .uval w 0 := by
        intro r
        constructor
        · intro h
          cases r with
          | uval w a => cases a with
            | zero => exact ⟨w, rfl⟩
            | succ a => simp [TExpr.isConst] at h
          | _ => simp [TExpr.isConst] at h
        · rintro ⟨w, rfl⟩; rfl
      have h' : ∀ (l' : TExpr (ZMod p)) (r : TExpr (ZMod p)), (TExpr.fubin FUOp.pow l' r).isConst = (TExpr.fubin FUOp.pow l r).isConst := by
        intro l' r
        cases r with
        | uval w a => cases a <;> rfl
        | _ => rfl
      rw [h', Bool.eq_iff_iff, h, h]
      constructor
      · rintro ⟨w, h⟩; exact ⟨w, redefE_uval h⟩
      · rintro ⟨w, rfl⟩; exact ⟨w, by simp only [redefE]⟩
    | shl => rfl
    | shr => rfl
  | _ => simp only [redefE, TExpr.isConst]

theorem redefE_ty {n : ℕ} (e : TExpr (ZMod p)) : (redefE cid n e).1.ty = e.ty := by
  cases e <;> simp only [redefE, TExpr.ty]

theorem newCondition_redef {n : ℕ} {c c' : TExpr (ZMod p)} {b : List (TStmt (ZMod p))}
    (h : Redef O cid n c.vars c'.vars b (fun env => evalT env c) fun env => evalT env c') :
    Redef O cid n c.vars (newCondition cid (n + b.length) c').1.vars (b ++ (newCondition cid (n + b.length) c').2)
      (fun env => (evalT env c).bind asBool) fun env => (evalT env (newCondition cid (n + b.length) c').1).bind asBool := by
  have hsame : Redef O cid n c.vars c'.vars (b ++ []) (fun env => (evalT env c).bind asBool) fun env => (evalT env c').bind asBool := by
    rw [List.append_nil]
    refine h.map (fun _ h => h) (fun _ h => h) fun env v hv => ?_
    obtain ⟨a, h1, h2⟩ := bind_ok hv
    exact ⟨a, h1, fun env' h3 => by simp only [h3]; exact h2⟩
  have hnew : newCondition cid (n + b.length) c' = (.ident (cid (n + b.length)) .bool, [.definition (.ident (cid (n + b.length)) .bool) c']) →
      Redef O cid n c.vars (newCondition cid (n + b.length) c').1.vars (b ++ (newCondition cid (n + b.length) c').2)
      (fun env => (evalT env c).bind asBool) fun env => (evalT env (newCondition cid (n + b.length) c').1).bind asBool := by
    intro he
    rw [he]
    refine ⟨fun x hx => ?_, fun σ v hv => ?_⟩
    · simp only [TExpr.vars, List.mem_singleton] at hx
      exact .inr ⟨n + b.length, by omega, by simp, hx⟩
    · obtain ⟨a, h1, h2⟩ := bind_ok hv
      rw [asBool_ok h2] at h1
      obtain ⟨σ', e1, o1, f1, r1⟩ := h.sim σ _ h1
      refine ⟨σ'.set (cid (n + b.length)) (.bool v), e1.append (.one (.definition (a := .ident _ _) r1 (by simp only [setA]))), o1, fun x hx => ?_, ?_⟩
      · have := hx (n + b.length) (by omega) (by simp)
        simp only [TState.set, this, if_false]
        exact f1 x fun k k1 k2 => hx k k1 (by simp; omega)
      · rw [ident_of (v := .bool v) (by simp [TState.set]) (by simp [HasType])]
        rfl
  cases c' <;> first | exact hnew rfl | exact hsame

mutual
theorem redefE_sim (hc : Function.Injective cid) : ∀ (e : TExpr (ZMod p)) (n : ℕ), NoCid cid e.vars →
    Redef O cid n e.vars (redefE cid n e).1.vars (redefE cid n e).2 (fun env => evalT env e) fun env => evalT env (redefE cid n e).1
  | .fval _, _, _ => .nil
  | .bval _, _, _ => .nil
  | .uval _ _, _, _ => .nil
  | .ident _ _, _, _ => .nil
  | .removed _, _, _ => .nil
  | .fbin op l r, n, h => by
    refine ((redefE_sim hc l n h.left).pair hc (redefE_sim hc r _ h.right) h (reads_T _) (reads_T _)).map (fun _ h => h) (fun _ h => h) fun env v hv => ?_
    obtain ⟨a, b, h1, h2, h3⟩ := fbin_ok hv
    exact ⟨(a, b), both_ok.2 ⟨h1, h2⟩, fun env' h => h3 _ _ _ (both_ok.1 h).1 (both_ok.1 h).2⟩
  | .fubin op l r, n, h => by
    refine ((redefE_sim hc l n h.left).pair hc (redefE_sim hc r _ h.right) h (reads_T _) (reads_T _)).map (fun _ h => h) (fun _ h => h) fun env v hv => ?_
    obtain ⟨a, b, h1, h2, h3⟩ := fubin_ok hv
    exact ⟨(a, b), both_ok.2 ⟨h1, h2⟩, fun env' h => h3 _ _ _ (both_ok.1 h).1 (both_ok.1 h).2⟩
  | .ubin w op l r, n, h => by
    refine ((redefE_sim hc l n h.left).pair hc (redefE_sim hc r _ h.right) h (reads_T _) (reads_T _)).map (fun _ h => h) (fun _ h => h) fun env v hv => ?_
    obtain ⟨a, b, h1, h2, h3⟩ := ubin_ok hv
    exact ⟨(a, b), both_ok.2 ⟨h1, h2⟩, fun env' h => h3 _ _ _ (both_ok.1 h).1 (both_ok.1 h).2⟩
  | .bbin op l r, n, h => by
    refine ((redefE_sim hc l n h.left).pair hc (redefE_sim hc r _ h.right) h (reads_T _) (reads_T _)).map (fun _ h => h) (fun _ h => h) fun env v hv => ?_
    obtain ⟨a, b, h1, h2, h3⟩ := bbin_ok hv
    exact ⟨(a, b), both_ok.2 ⟨h1, h2⟩, fun env' h => h3 _ _ _ (both_ok.1 h).1 (both_ok.1 h).2⟩
  | .fcmp op l r, n, h => by
    refine ((redefE_sim hc l n h.left).pair hc (redefE_sim hc r _ h.right) h (reads_T _) (reads_T _)).map (fun _ h => h) (fun _ h => h) fun env v hv => ?_
    obtain ⟨a, b, h1, h2, h3⟩ := fcmp_ok hv
    exact ⟨(a, b), both_ok.2 ⟨h1, h2⟩, fun env' h => h3 _ _ _ (by rw [redefE_isConst, redefE_isConst]) (both_ok.1 h).1 (both_ok.1 h).2⟩
  | .ucmp op l r, n, h => by
    refine ((redefE_sim hc l n h.left).pair hc (redefE_sim hc r _ h.right) h (reads_T _) (reads_T _)).map (fun _ h => h) (fun _ h => h) fun env v hv => ?_
    obtain ⟨a, b, h1, h2, h3⟩ := ucmp_ok hv
    exact ⟨(a, b), both_ok.2 ⟨h1, h2⟩, fun env' h => h3 _ _ _ (redefE_ty _) (both_ok.1 h).1 (both_ok.1 h).2⟩
  | .eq l r, n, h => by
    refine ((redefE_sim hc l n h.left).pair hc (redefE_sim hc r _ h.right) h (reads_T _) (reads_T _)).map (fun _ h => h) (fun _ h => h) fun env v hv => ?_
    obtain ⟨a, b, h1, h2, h3⟩ := eq_ok hv
    exact ⟨(a, b), both_ok.2 ⟨h1, h2⟩, fun env' h => h3 _ _ _ (both_ok.1 h).1 (both_ok.1 h).2⟩
  | .select t l r, n, h => by
    refine ((redefE_sim hc l n h.left).pair hc (redefE_sim hc r _ h.right) h (reads_T _) (reads_T _)).map (fun _ h => h) (fun _ h => h) fun env v hv => ?_
    obtain ⟨a, b, h1, h2, h3⟩ := select_ok hv
    exact ⟨(a, b), both_ok.2 ⟨h1, h2⟩, fun env' h => h3 _ _ _ (both_ok.1 h).1 (both_ok.1 h).2⟩
  | .repeat_ t k l r, n, h => by
    refine ((redefE_sim hc l n h.left).pair hc (redefE_sim hc r _ h.right) h (reads_T _) (reads_T _)).map (fun _ h => h) (fun _ h => h) fun env v hv => ?_
    obtain ⟨a, b, h1, h2, h3⟩ := repeat__ok hv
    exact ⟨(a, b), both_ok.2 ⟨h1, h2⟩, fun env' h => h3 _ _ _ (both_ok.1 h).1 (both_ok.1 h).2⟩
  | .fneg e, n, h => (redefE_sim hc e n h).map (fun _ h => h) (fun _ h => h) fun env v hv => by
    obtain ⟨a, h1, h2⟩ := fneg_ok hv
    exact ⟨a, h1, fun env' h => h2 _ _ h⟩
  | .fpos e, n, h => (redefE_sim hc e n h).map (fun _ h => h) (fun _ h => h) fun env v hv => by
    obtain ⟨a, h1, h2⟩ := fpos_ok hv
    exact ⟨a, h1, fun env' h => h2 _ _ h⟩
  | .unot w e, n, h => (redefE_sim hc e n h).map (fun _ h => h) (fun _ h => h) fun env v hv => by
    obtain ⟨a, h1, h2⟩ := unot_ok hv
    exact ⟨a, h1, fun env' h => h2 _ _ h⟩
  | .uneg w e, n, h => (redefE_sim hc e n h).map (fun _ h => h) (fun _ h => h) fun env v hv => by
    obtain ⟨a, h1, h2⟩ := uneg_ok hv
    exact ⟨a, h1, fun env' h => h2 _ _ h⟩
  | .upos w e, n, h => (redefE_sim hc e n h).map (fun _ h => h) (fun _ h => h) fun env v hv => by
    obtain ⟨a, h1, h2⟩ := upos_ok hv
    exact ⟨a, h1, fun env' h => h2 _ _ h⟩
  | .bnot e, n, h => (redefE_sim hc e n h).map (fun _ h => h) (fun _ h => h) fun env v hv => by
    obtain ⟨a, h1, h2⟩ := bnot_ok hv
    exact ⟨a, h1, fun env' h => h2 _ _ h⟩
  | .member t e m, n, h => (redefE_sim hc e n h).map (fun _ h => h) (fun _ h => h) fun env v hv => by
    obtain ⟨a, h1, h2⟩ := member_ok hv
    exact ⟨a, h1, fun env' h => h2 _ _ h⟩
  | .element t e i, n, h => (redefE_sim hc e n h).map (fun _ h => h) (fun _ h => h) fun env v hv => by
    obtain ⟨a, h1, h2⟩ := element_ok hv
    exact ⟨a, h1, fun env' h => h2 _ _ h⟩
  | .array t k es, n, h => (redefS_sim hc es n h).map (fun _ h => h) (fun _ h => h) fun env v hv => by
    obtain ⟨a, h1, _, h2⟩ := array_ok hv
    exact ⟨a, h1, fun env' h => h2 _ _ h⟩
  | .struct ms es, n, h => (redefL_sim hc es n h).map (fun _ h => h) (fun _ h => h) fun env v hv => by
    obtain ⟨a, h1, h2⟩ := struct_ok hv
    exact ⟨a, h1, fun env' h => h2 _ _ h⟩
  | .tuple ts es, n, h => (redefL_sim hc es n h).map (fun _ h => h) (fun _ h => h) fun env v hv => by
    obtain ⟨a, h1, h2⟩ := tuple_ok hv
    exact ⟨a, h1, fun env' h => h2 _ _ h⟩
  | .cond t c l r, n, h => by
    have h12 : NoCid cid (c.vars ++ l.vars) := NoCid.left h
    refine (((newCondition_redef (redefE_sim hc c n h12.left)).pair hc (redefE_sim hc l _ h12.right) h12 (fun env env' h => by
      simp only [evalT_congr _ h]) (reads_T _)).pair hc (redefE_sim hc r _ (NoCid.right h)) h
      (Reads.both (fun env env' h => by simp only [evalT_congr _ h]) (reads_T _)) (reads_T _)).map (fun _ h => h) (fun _ h => h) fun env v hv => ?_
    obtain ⟨k, a, b, h1, h2, h3, _, h4⟩ := cond_ok hv
    refine ⟨((k, a), b), both_ok.2 ⟨both_ok.2 ⟨by simp only [h1]; rfl, h2⟩, h3⟩, fun env' h => ?_⟩
    obtain ⟨g1, g2⟩ := both_ok.1 h
    obtain ⟨g1, g3⟩ := both_ok.1 g1
    obtain ⟨x, g4, g5⟩ := bind_ok g1
    rw [asBool_ok g5] at g4
    exact h4 _ _ _ _ _ g4 g3 g2
  | .slice t k e lo hi, n, h => by
    have h12 : NoCid cid (e.vars ++ lo.vars) := NoCid.left h
    refine (((redefE_sim hc e n h12.left).pair hc (redefE_sim hc lo _ h12.right) h12 (reads_T _) (reads_T _)).pair hc (redefE_sim hc hi _ (NoCid.right h)) h
      (Reads.both (reads_T _) (reads_T _)) (reads_T _)).map (fun _ h => h) (fun _ h => h) fun env v hv => ?_
    obtain ⟨a, l, r, h1, h2, h3, h4⟩ := slice_ok hv
    refine ⟨((a, l), r), both_ok.2 ⟨both_ok.2 ⟨h1, h2⟩, h3⟩, fun env' h => ?_⟩
    obtain ⟨g1, g2⟩ := both_ok.1 h
    obtain ⟨g1, g3⟩ := both_ok.1 g1
    exact h4 _ _ _ _ g1 g3 g2
theorem redefL_sim (hc : Function.Injective cid) : ∀ (es : List (TExpr (ZMod p))) (n : ℕ), NoCid cid (varsL es) →
    Redef O cid n (varsL es) (varsL (redefL cid n es).1) (redefL cid n es).2 (fun env => evalL env es) fun env => evalL env (redefL cid n es).1
  | [], _, _ => .nil
  | e :: es, n, h => by
    refine ((redefE_sim hc e n (NoCid.left h)).pair hc (redefL_sim hc es _ (NoCid.right h)) h (reads_T _) (reads_L _)).map (fun _ h => h) (fun _ h => h)
      fun env v hv => ?_
    obtain ⟨a, b, h1, h2, _, h3⟩ := cons_ok hv
    exact ⟨(a, b), both_ok.2 ⟨h1, h2⟩, fun env' h => h3 _ _ _ (both_ok.1 h).1 (both_ok.1 h).2⟩
theorem redefS_sim (hc : Function.Injective cid) : ∀ (es : List (TSpread (ZMod p))) (n : ℕ), NoCid cid (varsS es) →
    Redef O cid n (varsS es) (varsS (redefS cid n es).1) (redefS cid n es).2 (fun env => evalS env es) fun env => evalS env (redefS cid n es).1
  | [], _, _ => .nil
  | .expr e :: es, n, h => by
    refine ((redefE_sim hc e n (NoCid.left h)).pair hc (redefS_sim hc es _ (NoCid.right h)) h (reads_T _) (reads_S _)).map (fun _ h => h) (fun _ h => h)
      fun env v hv => ?_
    obtain ⟨a, b, h1, h2, _, h3⟩ := expr_ok hv
    exact ⟨(a, b), both_ok.2 ⟨h1, h2⟩, fun env' h => h3 _ _ _ (both_ok.1 h).1 (both_ok.1 h).2⟩
  | .spread e :: es, n, h => by
    refine ((redefE_sim hc e n (NoCid.left h)).pair hc (redefS_sim hc es _ (NoCid.right h)) h (reads_T _) (reads_S _)).map (fun _ h => h) (fun _ h => h)
      fun env v hv => ?_
    obtain ⟨a, b, h1, h2, _, h3⟩ := spread_ok hv
    exact ⟨(.array a, b), both_ok.2 ⟨h1, h2⟩, fun env' h => h3 _ _ _ (both_ok.1 h).1 (both_ok.1 h).2⟩
end

end Zok.Typed
