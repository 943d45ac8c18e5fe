import Verif.Lemmas.ConditionRedefiner
import Verif.Spec.ConditionRedefiner

/-
The redefinition of conditions in statements.
-/

set_option linter.unusedSectionVars false
set_option linter.unusedSimpArgs false

namespace Zok.Typed
open Abi
variable {p : ℕ} {Z : Type} [Fact p.Prime] {O : Oracle p Z} {cid : ℕ → TId}

/-! ### Assignees -/

/-- The values of the indices of an assignee. -/
noncomputable def pathE (env : TEnv p) : TAssignee (ZMod p) → Except Fault (List (AVal (ZMod p)))
  | .ident _ _ => .ok []
  | .select a i => (pathE env a).bind fun ks => (evalT env i).bind fun k => .ok (k :: ks)
  | .member a _ | .element a _ => pathE env a

/-- The variables of the indices of an assignee. -/
def idxVars {F : Type} : TAssignee F → List TId
  | .ident _ _ => []
  | .select a i => idxVars a ++ i.vars
  | .member a _ | .element a _ => idxVars a

theorem varsL_append {F : Type} : ∀ (as bs : List (TExpr F)), varsL (as ++ bs) = varsL as ++ varsL bs
  | [], _ => rfl
  | a :: as, bs => by simp only [List.cons_append, varsL, varsL_append as bs, List.append_assoc]

theorem idxVars_eq {F : Type} : ∀ (a : TAssignee F), idxVars a = varsL a.indices
  | .ident _ _ => rfl
  | .select a i => by simp only [idxVars, TAssignee.indices, varsL_append, idxVars_eq a, varsL, List.append_nil]
  | .member a _ => idxVars_eq a
  | .element a _ => idxVars_eq a

theorem pathE_reads : ∀ (a : TAssignee (ZMod p)), Reads (idxVars a) fun env => pathE env a
  | .ident _ _, _, _, _ => rfl
  | .select a i, env, env', h => by
    have h1 := pathE_reads a env env' fun x hx => h x (by simp [idxVars, hx])
    have h2 := evalT_congr (env := env) (env' := env') i fun x hx => h x (by simp [idxVars, hx])
    simp only at h1
    simp only [pathE, h1, h2]
  | .member a _, env, env', h => by simp only [pathE]; exact pathE_reads a env env' h
  | .element a _, env, env', h => by simp only [pathE]; exact pathE_reads a env env' h

theorem redefA_sim (hc : Function.Injective cid) : ∀ (a : TAssignee (ZMod p)) (n : ℕ), NoCid cid (idxVars a) →
    Redef O cid n (idxVars a) (idxVars (redefA cid n a).1) (redefA cid n a).2 (fun env => pathE env a) fun env => pathE env (redefA cid n a).1
  | .ident _ _, _, _ => .nil
  | .select a i, n, h => by
    refine ((redefA_sim hc a n (NoCid.left h)).pair hc (redefE_sim hc i _ (NoCid.right h)) h (pathE_reads _) (reads_T _)).map (fun _ h => h) (fun _ h => h)
      fun env v hv => ?_
    simp only [pathE] at hv
    obtain ⟨ks, h1, hv⟩ := bind_ok hv
    obtain ⟨k, h2, hv⟩ := bind_ok hv
    cases hv
    refine ⟨(ks, k), both_ok.2 ⟨h1, h2⟩, fun env' h => ?_⟩
    obtain ⟨g1, g2⟩ := both_ok.1 h
    simp only [redefA, pathE, g1, g2, Except.bind]
  | .member a _, n, h => by
    have := redefA_sim hc a n h
    simpa only [redefA, idxVars, pathE] using this
  | .element a _, n, h => by
    have := redefA_sim hc a n h
    simpa only [redefA, idxVars, pathE] using this

theorem redefA_root (n : ℕ) : ∀ (a : TAssignee (ZMod p)), (redefA cid n a).1.root = a.root
  | .ident _ _ => rfl
  | .select a _ => redefA_root n a
  | .member a _ => redefA_root n a
  | .element a _ => redefA_root n a

theorem redefA_ty (n : ℕ) : ∀ (a : TAssignee (ZMod p)), (redefA cid n a).1.ty = a.ty
  | .ident _ _ => rfl
  | .select a _ => by simp only [redefA, TAssignee.ty, redefA_ty n a]
  | .member a _ => by simp only [redefA, TAssignee.ty, redefA_ty n a]
  | .element a _ => by simp only [redefA, TAssignee.ty, redefA_ty n a]

/-- The part an assignee denotes is given by the values of its indices. -/
theorem redefA_same {n : ℕ} {env env' : TEnv p} : ∀ {a : TAssignee (ZMod p)} {ks : List (AVal (ZMod p))}, pathE env a = .ok ks →
    pathE env' (redefA cid n a).1 = .ok ks → env' a.root = env a.root →
    getA env' (redefA cid n a).1 = getA env a ∧ ∀ w, setA env' (redefA cid n a).1 w = setA env a w
  | .ident x t, ks, _, _, h => by
    refine ⟨?_, fun w => ?_⟩
    · simp only [redefA, getA]
      exact evalT_congr _ fun y hy => by simp only [TExpr.vars, List.mem_singleton] at hy; subst hy; exact h
    · simp only [redefA, setA]
  | .select a i, ks, h1, h2, h => by
    simp only [pathE] at h1
    obtain ⟨ks1, h3, h1⟩ := bind_ok h1
    obtain ⟨k1, h4, h1⟩ := bind_ok h1
    cases h1
    simp only [redefA, pathE] at h2
    obtain ⟨ks2, h5, h2⟩ := bind_ok h2
    obtain ⟨k2, h6, h2⟩ := bind_ok h2
    cases h2
    obtain ⟨i1, i2⟩ := redefA_same h3 h5 h
    refine ⟨by simp only [redefA, getA, i1, h4, h6], fun w => ?_⟩
    simp only [redefA, setA, i1, h4, h6, i2]
  | .member a m, ks, h1, h2, h => by
    obtain ⟨i1, i2⟩ := redefA_same (a := a) (ks := ks) h1 h2 h
    exact ⟨by simp only [redefA, getA, i1], fun w => by simp only [redefA, setA, i1, i2]⟩
  | .element a m, ks, h1, h2, h => by
    obtain ⟨i1, i2⟩ := redefA_same (a := a) (ks := ks) h1 h2 h
    exact ⟨by simp only [redefA, getA, i1], fun w => by simp only [redefA, setA, i1, i2]⟩

theorem path_ok {env : TEnv p} : ∀ {a : TAssignee (ZMod p)}, (∀ u, getA env a = .ok u → ∃ ks, pathE env a = .ok ks) ∧
    ∀ w u, setA env a w = .ok u → ∃ ks, pathE env a = .ok ks
  | .ident _ _ => ⟨fun _ _ => ⟨[], rfl⟩, fun _ _ _ => ⟨[], rfl⟩⟩
  | .select a i => by
    have key : ∀ {β : Type} {f : List (AVal (ZMod p)) → ℕ → Except Fault β} {u : β}, (do let vs ← (getA env a).bind asArray; let k ← (evalT env i).bind (asUint .b32); f vs k) = .ok u →
        ∃ ks, pathE env (.select a i) = .ok ks := by
      intro β f u h
      obtain ⟨vs, h1, h⟩ := bind_ok h
      obtain ⟨_, h1, _⟩ := bind_ok h1
      obtain ⟨k, h2, h⟩ := bind_ok h
      obtain ⟨k, h2, _⟩ := bind_ok h2
      obtain ⟨ks, h3⟩ := path_ok.1 _ h1
      exact ⟨k :: ks, by simp only [pathE, h3, h2, Except.bind]⟩
    refine ⟨fun u h => ?_, fun w u h => ?_⟩
    · simp only [getA] at h
      exact key h
    · simp only [setA] at h
      exact key h
  | .member a m => by
    refine ⟨fun u h => ?_, fun w u h => ?_⟩
    · simp only [getA] at h
      obtain ⟨x, h1, _⟩ := bind_ok h
      exact (path_ok (a := a)).1 _ h1
    · simp only [setA] at h
      obtain ⟨x, h1, _⟩ := bind_ok h
      exact (path_ok (a := a)).1 _ h1
  | .element a m => by
    refine ⟨fun u h => ?_, fun w u h => ?_⟩
    · simp only [getA] at h
      obtain ⟨x, h1, _⟩ := bind_ok h
      exact (path_ok (a := a)).1 _ h1
    · simp only [setA] at h
      obtain ⟨x, h1, _⟩ := bind_ok h
      exact (path_ok (a := a)).1 _ h1

theorem setA_congr {env env' : TEnv p} : ∀ {a : TAssignee (ZMod p)}, (∀ x ∈ a.vars, env x = env' x) → getA env a = getA env' a ∧ ∀ w, setA env a w = setA env' a w
  | .ident x t, h => by
    refine ⟨?_, fun w => by simp only [setA]⟩
    simp only [getA]
    exact evalT_congr _ fun y hy => h y (by simpa [TAssignee.vars, TAssignee.root, TExpr.vars, TAssignee.indices, varsL] using hy)
  | .select a i, h => by
    simp only [TAssignee.vars, TAssignee.root, TAssignee.indices, varsL_append, varsL, List.append_nil, List.mem_cons, List.mem_append] at h
    obtain ⟨h1, h2⟩ := setA_congr (a := a) (env := env) (env' := env') fun x hx => h x (by simp only [TAssignee.vars, List.mem_cons] at hx; tauto)
    have h3 := evalT_congr (env := env) (env' := env') i fun x hx => h x (.inr (.inr hx))
    exact ⟨by simp only [getA, h1, h3], fun w => by simp only [setA, h1, h3, h2]⟩
  | .member a m, h => by
    obtain ⟨h1, h2⟩ := setA_congr (a := a) (env := env) (env' := env') h
    exact ⟨by simp only [getA, h1], fun w => by simp only [setA, h1, h2]⟩
  | .element a m, h => by
    obtain ⟨h1, h2⟩ := setA_congr (a := a) (env := env) (env' := env') h
    exact ⟨by simp only [getA, h1], fun w => by simp only [setA, h1, h2]⟩

theorem redefA_const {n : ℕ} : ∀ {a : TAssignee (ZMod p)}, a.ConstantIndices → redefA cid n a = (a, [])
  | .ident _ _, _ => rfl
  | .select a i, h => by
    have h1 : a.ConstantIndices := fun j hj => h j (by simp [TAssignee.indices, hj])
    obtain ⟨w, k, rfl⟩ := h i (by simp [TAssignee.indices])
    simp only [redefA, redefA_const h1, redefE, List.append_nil]
  | .member a _, h => by simp only [redefA, redefA_const (a := a) h]
  | .element a _, h => by simp only [redefA, redefA_const (a := a) h]

/-! ### The buffer -/

/-- The statements define new variables. -/
def Buffer (cid : ℕ → TId) (n : ℕ) (b : List (TStmt (ZMod p))) : Prop :=
  ∀ k (hk : k < b.length), ∃ c, b[k] = .definition (.ident (cid (n + k)) .bool) c ∧ c.ty = .bool ∧ c.Wt

theorem Buffer.nil {n : ℕ} : Buffer (p := p) cid n [] := fun k hk => by simp at hk

theorem Buffer.append {n : ℕ} {b c : List (TStmt (ZMod p))} (h1 : Buffer cid n b) (h2 : Buffer cid (n + b.length) c) : Buffer cid n (b ++ c) := by
  intro k hk
  by_cases h : k < b.length
  · rw [List.getElem_append_left h]; exact h1 k h
  · rw [List.getElem_append_right (by omega)]
    obtain ⟨c', h3⟩ := h2 (k - b.length) (by simp at hk; omega)
    rw [show n + b.length + (k - b.length) = n + k by omega] at h3
    exact ⟨c', h3⟩

theorem Buffer.mem {n : ℕ} {b : List (TStmt (ZMod p))} (h : Buffer cid n b) {s : TStmt (ZMod p)} (hs : s ∈ b) :
    ∃ k c, n ≤ k ∧ k < n + b.length ∧ s = .definition (.ident (cid k) .bool) c ∧ c.ty = .bool ∧ c.Wt := by
  obtain ⟨k, hk, rfl⟩ := List.getElem_of_mem hs
  obtain ⟨c, h1, h2⟩ := h k hk
  exact ⟨n + k, c, by omega, by omega, h1, h2⟩

theorem newCondition_wt {n : ℕ} {c : TExpr (ZMod p)} (hw : c.Wt) (ht : c.ty = .bool) : Buffer cid n (newCondition cid n c).2 ∧ (newCondition cid n c).1.Wt ∧
    (newCondition cid n c).1.ty = .bool := by
  have hnew : newCondition cid n c = (.ident (cid n) .bool, [.definition (.ident (cid n) .bool) c]) → Buffer cid n (newCondition cid n c).2 ∧
      (newCondition cid n c).1.Wt ∧ (newCondition cid n c).1.ty = .bool := by
    intro h
    rw [h]
    refine ⟨fun k hk => ?_, by simp [TExpr.Wt, TypeOk, CType.Distinct, CType.Small, SmallL, SmallM, primCount], rfl⟩
    have : k = 0 := by simpa using hk
    subst this
    exact ⟨c, rfl, ht, hw⟩
  cases c <;> first | exact hnew rfl | exact ⟨.nil, hw, ht⟩

mutual
theorem redefE_wt : ∀ (e : TExpr (ZMod p)) (n : ℕ), e.Wt → Buffer cid n (redefE cid n e).2 ∧ (redefE cid n e).1.Wt
  | .fval _, _, h => ⟨.nil, h⟩
  | .bval _, _, h => ⟨.nil, h⟩
  | .uval _ _, _, h => ⟨.nil, h⟩
  | .ident _ _, _, h => ⟨.nil, h⟩
  | .removed _, _, h => h.elim
  | .fbin op l r, n, h => by
    obtain ⟨h1, h2, h3, h4⟩ := h
    exact ⟨(redefE_wt l n h3).1.append (redefE_wt r _ h4).1, by rw [redefE_ty]; exact h1, by rw [redefE_ty]; exact h2, (redefE_wt l n h3).2, (redefE_wt r _ h4).2⟩
  | .fubin op l r, n, h => by
    obtain ⟨h1, h2, h3, h4⟩ := h
    exact ⟨(redefE_wt l n h3).1.append (redefE_wt r _ h4).1, by rw [redefE_ty]; exact h1, by rw [redefE_ty]; exact h2, (redefE_wt l n h3).2, (redefE_wt r _ h4).2⟩
  | .ubin w op l r, n, h => by
    obtain ⟨h1, h2, h3, h4⟩ := h
    exact ⟨(redefE_wt l n h3).1.append (redefE_wt r _ h4).1, by rw [redefE_ty]; exact h1, by rw [redefE_ty]; exact h2, (redefE_wt l n h3).2, (redefE_wt r _ h4).2⟩
  | .bbin op l r, n, h => by
    obtain ⟨h1, h2, h3, h4⟩ := h
    exact ⟨(redefE_wt l n h3).1.append (redefE_wt r _ h4).1, by rw [redefE_ty]; exact h1, by rw [redefE_ty]; exact h2, (redefE_wt l n h3).2, (redefE_wt r _ h4).2⟩
  | .fcmp op l r, n, h => by
    obtain ⟨h1, h2, h3, h4⟩ := h
    exact ⟨(redefE_wt l n h3).1.append (redefE_wt r _ h4).1, by rw [redefE_ty]; exact h1, by rw [redefE_ty]; exact h2, (redefE_wt l n h3).2, (redefE_wt r _ h4).2⟩
  | .ucmp op l r, n, h => by
    obtain ⟨⟨w, h1, h2⟩, h3, h4⟩ := h
    exact ⟨(redefE_wt l n h3).1.append (redefE_wt r _ h4).1, ⟨w, by rw [redefE_ty]; exact h1, by rw [redefE_ty]; exact h2⟩, (redefE_wt l n h3).2, (redefE_wt r _ h4).2⟩
  | .eq l r, n, h => by
    obtain ⟨h1, h2, h3, h4⟩ := h
    exact ⟨(redefE_wt l n h3).1.append (redefE_wt r _ h4).1, by rw [redefE_ty, redefE_ty]; exact h1, by rw [redefE_ty]; exact h2, (redefE_wt l n h3).2,
      (redefE_wt r _ h4).2⟩
  | .select t l r, n, h => by
    obtain ⟨⟨k, h1⟩, h2, h3, h4⟩ := h
    exact ⟨(redefE_wt l n h3).1.append (redefE_wt r _ h4).1, ⟨k, by rw [redefE_ty]; exact h1⟩, by rw [redefE_ty]; exact h2, (redefE_wt l n h3).2, (redefE_wt r _ h4).2⟩
  | .repeat_ t k l r, n, h => by
    obtain ⟨⟨h0, h1⟩, rfl, h3⟩ := h
    exact ⟨(redefE_wt l n h3).1.append .nil, ⟨h0, by rw [redefE_ty]; exact h1⟩, rfl, (redefE_wt l n h3).2⟩
  | .slice t k a lo hi, n, h => by
    obtain ⟨⟨m, l, r, h1, rfl, rfl, h2, h3, h4⟩, h5⟩ := h
    exact ⟨((redefE_wt a n h5).1.append .nil).append .nil, ⟨m, l, r, by rw [redefE_ty]; exact h1, rfl, rfl, h2, h3, h4⟩, (redefE_wt a n h5).2⟩
  | .fneg e, n, h => ⟨(redefE_wt e n h.2).1, by rw [redefE_ty]; exact h.1, (redefE_wt e n h.2).2⟩
  | .fpos e, n, h => ⟨(redefE_wt e n h.2).1, by rw [redefE_ty]; exact h.1, (redefE_wt e n h.2).2⟩
  | .unot w e, n, h => ⟨(redefE_wt e n h.2).1, by rw [redefE_ty]; exact h.1, (redefE_wt e n h.2).2⟩
  | .uneg w e, n, h => ⟨(redefE_wt e n h.2).1, by rw [redefE_ty]; exact h.1, (redefE_wt e n h.2).2⟩
  | .upos w e, n, h => ⟨(redefE_wt e n h.2).1, by rw [redefE_ty]; exact h.1, (redefE_wt e n h.2).2⟩
  | .bnot e, n, h => ⟨(redefE_wt e n h.2).1, by rw [redefE_ty]; exact h.1, (redefE_wt e n h.2).2⟩
  | .member t e m, n, h => ⟨(redefE_wt e n h.2).1, by rw [redefE_ty]; exact h.1, (redefE_wt e n h.2).2⟩
  | .element t e m, n, h => ⟨(redefE_wt e n h.2).1, by rw [redefE_ty]; exact h.1, (redefE_wt e n h.2).2⟩
  | .array t k es, n, h => ⟨(redefS_wt es n k h.2.2 h.2.1).1, h.1, (redefS_wt es n k h.2.2 h.2.1).2.2, (redefS_wt es n k h.2.2 h.2.1).2.1⟩
  | .struct ms es, n, h => ⟨(redefL_wt es n h.2.2).1, h.1, by rw [(redefL_wt es n h.2.2).2.2]; exact h.2.1, (redefL_wt es n h.2.2).2.1⟩
  | .tuple ts es, n, h => ⟨(redefL_wt es n h.2).1, by rw [(redefL_wt es n h.2).2.2]; exact h.1, (redefL_wt es n h.2).2.1⟩
  | .cond t c a b, n, h => by
    obtain ⟨h1, h2, h3, h4, h5, h6⟩ := h
    obtain ⟨k1, k2⟩ := redefE_wt c n h4
    obtain ⟨k3, k4, k5⟩ := newCondition_wt (cid := cid) (n := n + (redefE cid n c).2.length) k2 (by rw [redefE_ty]; exact h1)
    exact ⟨((k1.append k3).append (redefE_wt a _ h5).1).append (redefE_wt b _ h6).1, k5, by rw [redefE_ty]; exact h2, by rw [redefE_ty]; exact h3, k4,
      (redefE_wt a _ h5).2, (redefE_wt b _ h6).2⟩
theorem redefL_wt : ∀ (es : List (TExpr (ZMod p))) (n : ℕ), WtL es → Buffer cid n (redefL cid n es).2 ∧ WtL (redefL cid n es).1 ∧
    (redefL cid n es).1.map TExpr.ty = es.map TExpr.ty
  | [], _, _ => ⟨.nil, trivial, rfl⟩
  | e :: es, n, h => by
    obtain ⟨h1, h2, h3⟩ := redefL_wt es (n + (redefE cid n e).2.length) h.2
    refine ⟨(redefE_wt e n h.1).1.append h1, ⟨(redefE_wt e n h.1).2, h2⟩, ?_⟩
    simp only [redefL, List.map_cons, redefE_ty, h3]
theorem redefS_wt {t : CType} : ∀ (es : List (TSpread (ZMod p))) (n k : ℕ), WtS t es → spreadCount t es k → Buffer cid n (redefS cid n es).2 ∧
    WtS t (redefS cid n es).1 ∧ spreadCount t (redefS cid n es).1 k
  | [], _, _, _, h => ⟨.nil, trivial, h⟩
  | .expr e :: es, n, k, h, hk => by
    obtain ⟨k', rfl, hk⟩ := hk
    obtain ⟨h1, h2, h3⟩ := redefS_wt es (n + (redefE cid n e).2.length) k' h.2 hk
    exact ⟨(redefE_wt e n h.1.2).1.append h1, ⟨⟨by rw [redefE_ty]; exact h.1.1, (redefE_wt e n h.1.2).2⟩, h2⟩, k', rfl, h3⟩
  | .spread e :: es, n, k, h, hk => by
    obtain ⟨m, k', h0, rfl, hk⟩ := hk
    obtain ⟨h1, h2, h3⟩ := redefS_wt es (n + (redefE cid n e).2.length) k' h.2 hk
    exact ⟨(redefE_wt e n h.1).1.append h1, ⟨(redefE_wt e n h.1).2, h2⟩, m, k', by rw [redefE_ty]; exact h0, rfl, h3⟩
end

theorem redefA_wt : ∀ (a : TAssignee (ZMod p)) (n : ℕ), a.Wt → Buffer cid n (redefA cid n a).2 ∧ (redefA cid n a).1.Wt
  | .ident _ _, _, h => ⟨.nil, h⟩
  | .select a i, n, h => by
    obtain ⟨⟨k, t, h1⟩, h2, h3, h4⟩ := h
    exact ⟨(redefA_wt a n h4).1.append (redefE_wt i _ h3).1, ⟨k, t, by rw [redefA_ty]; exact h1⟩, by rw [redefE_ty]; exact h2, (redefE_wt i _ h3).2, (redefA_wt a n h4).2⟩
  | .member a m, n, h => ⟨(redefA_wt a n h.2).1, by rw [redefA_ty]; exact h.1, (redefA_wt a n h.2).2⟩
  | .element a m, n, h => ⟨(redefA_wt a n h.2).1, by rw [redefA_ty]; exact h.1, (redefA_wt a n h.2).2⟩

theorem redefStmt_wt {t : CType} : ∀ (s : TStmt (ZMod p)) (n : ℕ), s.Wt t → Buffer cid n (redefStmt cid n s).1 ∧ (redefStmt cid n s).2.Wt t
  | .ret e, n, h => ⟨(redefE_wt e n h.2).1, by rw [redefE_ty]; exact h.1, (redefE_wt e n h.2).2⟩
  | .definition a e, n, h => ⟨(redefE_wt e n h.2.2).1.append (redefA_wt a _ h.2.1).1, by rw [redefE_ty, redefA_ty]; exact h.1, (redefA_wt a _ h.2.1).2,
      (redefE_wt e n h.2.2).2⟩
  | .embed a f g args, n, h => ⟨(redefL_wt args n h.2.2).1.append (redefA_wt a _ h.2.1).1, by rw [redefA_ty]; exact h.1, (redefA_wt a _ h.2.1).2,
      (redefL_wt args n h.2.2).2.1⟩
  | .assertion e err, n, h => ⟨(redefE_wt e n h.2).1, by rw [redefE_ty]; exact h.1, (redefE_wt e n h.2).2⟩
  | .log es, n, h => ⟨(redefL_wt es n h).1, (redefL_wt es n h).2.1⟩

/-! ### Statements -/

/-- The states agree on everything but the new variables. -/
def SameBut (cid : ℕ → TId) (σ τ : TState p) : Prop := τ.out = σ.out ∧ ∀ x, (∀ k, x ≠ cid k) → τ.env x = σ.env x

theorem SameBut.set {σ τ : TState p} (h : SameBut cid σ τ) (x : TId) (v : AVal (ZMod p)) : SameBut cid (σ.set x v) (τ.set x v) := by
  refine ⟨h.1, fun y hy => ?_⟩
  simp only [TState.set]
  split
  · rfl
  · exact h.2 y hy

theorem Buffer.pure {n : ℕ} {b : List (TStmt (ZMod p))} (h : Buffer cid n b) : ∀ s ∈ b, s.Pure := fun s hs => by
  obtain ⟨k, c, _, _, rfl, _⟩ := h.mem hs
  trivial

/-- With the buffer in front, the expression of a statement has its value. -/
theorem Redef.run {α : Type} {n : ℕ} {vs vs' : List TId} {b : List (TStmt (ZMod p))} {ev ev' : TEnv p → Except Fault α} (h : Redef O cid n vs vs' b ev ev')
    (hr : Reads vs ev) (hn : NoCid cid vs) {σ τ : TState p} (hs : SameBut cid σ τ) {v : α} (hv : ev σ.env = .ok v) :
    ∃ τ', ExecTs O τ b (.ok τ') ∧ SameBut cid σ τ' ∧ ev' τ'.env = .ok v := by
  have hv' : ev τ.env = .ok v := by rw [← hv]; exact hr _ _ fun x hx => hs.2 x (hn x hx)
  obtain ⟨τ', h1, h2, h3, h4⟩ := h.sim τ v hv'
  exact ⟨τ', h1, ⟨by rw [h2, hs.1], fun x hx => by rw [h3 x fun k _ _ => hx k]; exact hs.2 x hx⟩, h4⟩

theorem redefStmt_step (hc : Function.Injective cid) {t : CType} {n : ℕ} {s : TStmt (ZMod p)} (hw : s.Wt t) (hn : NoCid cid s.vars)
    (he : ∀ a f g args, s = .embed a f g args → a.ConstantIndices) :
    StepFor O (SameBut cid) s ((redefStmt cid n s).1 ++ [(redefStmt cid n s).2]) := by
  have hpure : s.Pure → ∀ x ∈ (redefStmt cid n s).1 ++ [(redefStmt cid n s).2], x.Pure := by
    intro hs x hx
    rcases List.mem_append.1 hx with hx | hx
    · exact (redefStmt_wt s n hw).1.pure x hx
    · rw [List.mem_singleton.1 hx]
      cases s <;> first | trivial | exact hs.elim
  cases s with
  | ret e =>
    refine .of_fwd trivial hw (hpure trivial) ?_ ?_
    · intro σ τ σ' hR h
      cases h with
      | ret h =>
        obtain ⟨τ', h1, h2, h3⟩ := (redefE_sim hc e n hn).run (reads_T e) hn hR h
        exact ⟨_, h1.append (.one (.ret h3)), rfl, h2.2⟩
    · intro σ τ e' err hR h; cases h
  | log es =>
    refine .of_fwd trivial hw (hpure trivial) ?_ ?_
    · intro σ τ σ' hR h
      cases h with
      | log h =>
        obtain ⟨τ', h1, h2, h3⟩ := (redefL_sim hc es n hn).run (reads_L es) hn hR h
        exact ⟨_, h1.append (.one (.log h3)), h2⟩
    · intro σ τ e' err hR h; cases h
  | assertion e err =>
    refine .of_fwd trivial hw (hpure trivial) ?_ ?_
    · intro σ τ σ' hR h
      cases h with
      | assertOk h =>
        obtain ⟨τ', h1, h2, h3⟩ := (redefE_sim hc e n hn).run (reads_T e) hn hR h
        exact ⟨_, h1.append (.one (.assertOk h3)), h2⟩
    · intro σ τ e' err' hR h hv
      cases h
      obtain ⟨τ', h1, h2, h3⟩ := (redefE_sim hc e n hn).run (reads_T e) hn hR hv
      exact ⟨_, _, _, [], τ', rfl, h1, h3⟩
  | definition a e =>
    refine .of_fwd trivial hw (hpure trivial) ?_ ?_
    · intro σ τ σ' hR h
      have hn1 : NoCid cid e.vars := NoCid.left hn
      have hn2 : NoCid cid (idxVars a) := by
        rw [idxVars_eq]; exact fun x hx => NoCid.right hn x (by simp [TAssignee.vars, hx])
      have hroot : ∀ k, a.root ≠ cid k := NoCid.right hn a.root (by simp [TAssignee.vars])
      cases h with
      | @definition _ _ v u hv hu =>
        obtain ⟨ks, hks⟩ := path_ok.2 _ _ hu
        have hn12 : NoCid cid (e.vars ++ idxVars a) := fun x hx => by
          rcases List.mem_append.1 hx with hx | hx
          · exact hn1 x hx
          · exact hn2 x hx
        obtain ⟨τ', h1, h2, h3⟩ := ((redefE_sim hc e n hn1).pair hc (redefA_sim hc a _ hn2) hn12 (reads_T _) (pathE_reads _)).run
          ((reads_T _).both (pathE_reads _)) hn12 hR (v := (v, ks)) (both_ok.2 ⟨hv, hks⟩)
        obtain ⟨h3, h4⟩ := both_ok.1 h3
        have h5 := (redefA_same hks h4 (h2.2 _ hroot)).2 v
        rw [hu] at h5
        refine ⟨_, h1.append (.one (.definition h3 h5)), ?_⟩
        rw [redefA_root]
        exact h2.set _ _
    · intro σ τ e' err hR h; cases h
  | embed a f g args =>
    have hca := he a f g args rfl
    have hn1 : NoCid cid (varsL args) := NoCid.left hn
    have hn2 : NoCid cid a.vars := NoCid.right hn
    have heq : redefStmt cid n (.embed a f g args) = ((redefL cid n args).2, .embed a f g (redefL cid n args).1) := by
      simp only [redefStmt, redefA_const hca, List.append_nil]
    rw [heq]
    have hrun := (redefL_sim (O := O) hc args n hn1)
    have hbp : ∀ s ∈ (redefL cid n args).2, s.OracleFree := fun s hs => ((redefL_wt args n hw.2.2).1.pure s hs).free
    have hset : ∀ {σ τ : TState p}, SameBut cid σ τ → ∀ v, setA τ.env a v = setA σ.env a v := fun h v =>
      (setA_congr fun x hx => h.2 x (hn2 x hx)).2 v
    refine ⟨?_, ?_, ?_, ?_⟩
    · intro σ τ σ' hR h
      cases h with
      | embed h1 h2 h3 h4 h5 =>
        obtain ⟨τ', k1, k2, k3⟩ := hrun.run (reads_L _) hn1 hR h1
        exact ⟨_, k1.append (.one (.embed k3 h2 h3 h4 (by rw [hset k2]; exact h5))), k2.set _ _⟩
    · intro σ τ τ' hR h
      cases hv : evalL σ.env args with
      | error f => exact .inr ⟨f, .argsFault hv⟩
      | ok vs =>
        obtain ⟨τ1, k1, k2, k3⟩ := hrun.run (reads_L _) hn1 hR hv
        rcases h.split with ⟨τ2, g1, g2⟩ | ⟨e, g1, _⟩
        · have := k1.det hbp g1
          cases this
          cases g2.of_one with
          | embed h1 h2 h3 h4 h5 =>
            rw [k3] at h1
            cases h1
            exact .inl ⟨_, .embed hv h2 h3 h4 (by rw [← hset k2]; exact h5), k2.set _ _⟩
        · cases g1
    · intro σ τ e hR h
      cases hv : evalL σ.env args with
      | error f => exact ⟨f, .argsFault hv⟩
      | ok vs =>
        obtain ⟨τ1, k1, k2, k3⟩ := hrun.run (reads_L _) hn1 hR hv
        rcases h.split with ⟨τ2, g1, g2⟩ | ⟨e, _, g1⟩
        · have := k1.det hbp g1
          cases this
          cases g2.of_one with
          | argsFault h1 => rw [k3] at h1; cases h1
          | embedFault h1 h2 => rw [k3] at h1; cases h1; exact ⟨_, .embedFault hv h2⟩
          | embedLhsFault h1 h2 h3 h4 h5 =>
            rw [k3] at h1
            cases h1
            exact ⟨_, .embedLhsFault hv h2 h3 h4 (by rw [← hset k2]; exact h5)⟩
        · have := k1.det hbp g1
          cases this
    · intro σ τ e err hR h; cases h

theorem redefStmts_steps (hc : Function.Injective cid) {t : CType} : ∀ {ss : List (TStmt (ZMod p))} {n : ℕ}, (∀ s ∈ ss, s.Wt t) → (∀ s ∈ ss, NoCid cid s.vars) →
    ConstantCalls ss → ∃ tss : List (List (TStmt (ZMod p))), redefStmts cid n ss = tss.flatten ∧ List.Forall₂ (StepFor O (SameBut cid)) ss tss
  | [], _, _, _, _ => ⟨[], rfl, .nil⟩
  | s :: ss, n, h1, h2, h3 => by
    obtain ⟨tss, h4, h5⟩ := redefStmts_steps hc (ss := ss) (n := n + (redefStmt cid n s).1.length) (fun s hs => h1 s (by simp [hs])) (fun s hs => h2 s (by simp [hs]))
      fun a f g args hm => h3 a f g args (by simp [hm])
    refine ⟨((redefStmt cid n s).1 ++ [(redefStmt cid n s).2]) :: tss, ?_, .cons (redefStmt_step hc (h1 s (by simp)) (h2 s (by simp)) ?_) h5⟩
    · simp only [redefStmts, h4, List.flatten_cons, List.append_assoc, List.singleton_append]
    · rintro a f g args rfl
      exact h3 a f g args (by simp)

theorem redefine_replaces (hc : Function.Injective cid) {f : TFun (ZMod p)} (hw : f.Wt) (hn : NoCid cid f.vars) (he : ConstantCalls f.body) :
    Replaces O f (redefine cid f) := by
  obtain ⟨tss, h1, h2⟩ := redefStmts_steps (O := O) hc (n := 0) hw.body (fun s hs x hx => hn x (by simp only [TFun.vars, List.mem_append, List.mem_flatMap]; exact .inr ⟨s, hs, hx⟩)) he
  exact Replaces.of_steps (R := SameBut cid) (fun σ τ h => h.1) rfl h1 h2 fun args => ⟨rfl, fun _ _ => rfl⟩

theorem redefStmts_wt {t : CType} : ∀ {ss : List (TStmt (ZMod p))} {n : ℕ}, (∀ s ∈ ss, s.Wt t) → ∀ s ∈ redefStmts cid n ss, s.Wt t
  | [], _, _ => by simp [redefStmts]
  | s :: ss, n, h => by
    intro s' hs
    obtain ⟨h1, h2⟩ := redefStmt_wt (cid := cid) s n (h s (by simp))
    simp only [redefStmts, List.mem_append, List.mem_cons] at hs
    rcases hs with hs | rfl | hs
    · obtain ⟨k, c, _, _, rfl, h3, h4⟩ := h1.mem hs
      exact ⟨by simp [TAssignee.ty, h3], by simp [TAssignee.Wt, TypeOk, CType.Distinct, CType.Small, SmallL, SmallM, primCount], h4⟩
    · exact h2
    · exact redefStmts_wt (fun s hs => h s (by simp [hs])) s' hs

theorem redefine_wt {f : TFun (ZMod p)} (hw : f.Wt) : (redefine cid f).Wt := ⟨hw.params, hw.ret, redefStmts_wt hw.body⟩

theorem freshCalls_mono {ss : List (TStmt (ZMod p))} : ∀ {seen seen' : List TId}, (∀ s ∈ ss, ∀ a f g args, s = .embed a f g args → a.root ∈ seen' → a.root ∈ seen) →
    FreshCalls seen ss → FreshCalls seen' ss := by
  induction ss with
  | nil => intro _ _ _ _; trivial
  | cons s ss ih =>
    intro seen seen' h hf
    refine ⟨fun a f g args he hm => hf.1 a f g args he (h s (by simp) a f g args he hm), ih ?_ hf.2⟩
    intro s' hs' a f g args he hm
    rcases List.mem_append.1 hm with hm | hm
    · exact List.mem_append_left _ hm
    · exact List.mem_append_right _ (h s' (by simp [hs']) a f g args he hm)

theorem freshCalls_buffer {n : ℕ} {ss : List (TStmt (ZMod p))} : ∀ {b : List (TStmt (ZMod p))} {seen : List TId}, (∀ s ∈ b, ∃ k c, s = .definition (.ident (cid k) .bool) c) →
    (∀ s ∈ ss, ∀ a f g args, s = .embed a f g args → ∀ k, a.root ≠ cid k) → FreshCalls seen ss → FreshCalls seen (b ++ ss)
  | [], _, _, _, h => h
  | s :: b, seen, hb, hr, h => by
    obtain ⟨k, c, rfl⟩ := hb s (by simp)
    refine ⟨fun a f g args he => (by cases he), ?_⟩
    refine freshCalls_buffer (n := n) (fun s hs => hb s (by simp [hs])) hr (freshCalls_mono ?_ h)
    intro s hs a f g args he hm
    rcases List.mem_append.1 hm with hm | hm
    · simp only [TStmt.assigns, List.mem_singleton] at hm
      exact absurd hm (hr s hs a f g args he k)
    · exact hm

theorem redefStmt_assigns (n : ℕ) (s : TStmt (ZMod p)) : (redefStmt cid n s).2.assigns = s.assigns := by
  cases s <;> simp only [redefStmt, TStmt.assigns, redefA_root]

theorem redefStmts_embeds : ∀ {ss : List (TStmt (ZMod p))} {n : ℕ} {t : CType}, (∀ s ∈ ss, s.Wt t) → (∀ s ∈ ss, NoCid cid s.vars) →
    ∀ s ∈ redefStmts cid n ss, ∀ a f g args, s = .embed a f g args → ∀ k, a.root ≠ cid k
  | [], _, _, _, _ => by simp [redefStmts]
  | s :: ss, n, t, hw, hn => by
    intro s' hs a f g args he
    simp only [redefStmts, List.mem_append, List.mem_cons] at hs
    rcases hs with hs | rfl | hs
    · obtain ⟨k, c, _, _, rfl, _⟩ := (redefStmt_wt (cid := cid) s n (hw s (by simp))).1.mem hs
      cases he
    · have := redefStmt_assigns (cid := cid) n s
      rw [he] at this
      have h2 := hn s (by simp)
      cases s <;> simp only [redefStmt] at he <;> try cases he
      rename_i a' _
      simp only [redefA_root]
      exact h2 a'.root (by simp [TStmt.vars, TAssignee.vars])
    · exact redefStmts_embeds (fun s hs => hw s (by simp [hs])) (fun s hs => hn s (by simp [hs])) s' hs a f g args he

theorem redefStmts_fresh {t : CType} : ∀ {ss : List (TStmt (ZMod p))} {n : ℕ} {seen : List TId}, (∀ s ∈ ss, s.Wt t) → (∀ s ∈ ss, NoCid cid s.vars) →
    FreshCalls seen ss → FreshCalls seen (redefStmts cid n ss)
  | [], _, _, _, _, h => h
  | s :: ss, n, seen, hw, hn, h => by
    refine freshCalls_buffer (cid := cid) (n := n) ?_ ?_ ?_
    · intro s' hs'
      obtain ⟨k, c, _, _, h1, _⟩ := (redefStmt_wt (cid := cid) s n (hw s (by simp))).1.mem hs'
      exact ⟨k, c, h1⟩
    · intro s' hs'
      refine redefStmts_embeds (ss := s :: ss) (n := n) hw hn s' ?_
      simp only [redefStmts, List.mem_append]
      exact .inr hs'
    · refine ⟨fun a f g args he => ?_, ?_⟩
      · cases s <;> simp only [redefStmt] at he <;> try cases he
        rw [redefA_root]
        exact h.1 _ _ _ _ rfl
      · rw [redefStmt_assigns]
        exact redefStmts_fresh (fun s hs => hw s (by simp [hs])) (fun s hs => hn s (by simp [hs])) h.2

end Zok.Typed
