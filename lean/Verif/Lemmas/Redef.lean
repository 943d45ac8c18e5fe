import Verif.Spec.Optimizer
import Verif.Lemmas.Vars

set_option linter.unusedSectionVars false

/- Lemmas about the redefinition optimiser. -/

namespace Zok
variable {F : Type _} [Field F] [DecidableEq F] {Z : Type _}

/-- The assignment agrees with the substitution. -/
def Respects (σ : SMap (LinComb F)) (ρ : Assignment F) : Prop :=
  ∀ x l, SMap.get σ x = some l → ρ x = LinComb.val ρ l

theorem val_substTerm {σ : SMap (LinComb F)} {ρ : Assignment F} (h : Respects σ ρ) (t : Variable × F) :
    LinComb.val ρ (substTerm σ t) = t.2 * ρ t.1 := by
  unfold substTerm
  split
  · rename_i l hl
    rw [LinComb.val_smul, ← h _ _ hl, mul_comm]
  · simp [LinComb.summand, LinComb.val]

theorem val_substLin {σ : SMap (LinComb F)} {ρ : Assignment F} (h : Respects σ ρ) (l : LinComb F) :
    LinComb.val ρ (substLin σ l) = LinComb.val ρ l := by
  unfold substLin
  split
  · have aux : ∀ (l acc : LinComb F),
        LinComb.val ρ (l.foldl (fun acc t => LinComb.add acc (substTerm σ t)) acc) = LinComb.val ρ acc + LinComb.val ρ l := by
      intro l
      induction l with
      | nil => intro acc; simp [LinComb.val]
      | cons t l ih =>
        intro acc
        rw [List.foldl_cons, ih, LinComb.val_add, val_substTerm h]
        simp [LinComb.val, add_assoc]
    rw [aux]; simp [LinComb.zero, LinComb.val]
  · rfl

theorem val_substQuad {σ : SMap (LinComb F)} {ρ : Assignment F} (h : Respects σ ρ) (q : QuadComb F) :
    (substQuad σ q).val ρ = q.val ρ := by
  simp only [substQuad, QuadComb.val, val_substLin h]

theorem vars_substLin {σ : SMap (LinComb F)} {l : LinComb F} {y : Variable} (h : y ∈ LinComb.vars (substLin σ l)) :
    (y ∈ LinComb.vars l ∧ SMap.get σ y = none) ∨ ∃ x ∈ LinComb.vars l, ∃ i, SMap.get σ x = some i ∧ y ∈ LinComb.vars i := by
  unfold substLin at h
  split at h
  · have aux : ∀ (l acc : LinComb F),
        y ∈ LinComb.vars (l.foldl (fun acc t => LinComb.add acc (substTerm σ t)) acc) →
        y ∈ LinComb.vars acc ∨ ∃ t ∈ l, y ∈ LinComb.vars (substTerm σ t) := by
      intro l
      induction l with
      | nil => intro acc h; exact .inl h
      | cons t l ih =>
        intro acc h
        rcases ih _ h with h | ⟨t', ht', h⟩
        · simp only [LinComb.vars_eq, LinComb.add, List.map_append, List.mem_append] at h
          rcases h with h | h
          · exact .inl h
          · exact .inr ⟨t, by simp, h⟩
        · exact .inr ⟨t', by simp [ht'], h⟩
    rcases aux _ _ h with h | ⟨t, ht, h⟩
    · simp [LinComb.zero, LinComb.vars_eq] at h
    · have htv : t.1 ∈ LinComb.vars l := List.mem_map_of_mem ht
      unfold substTerm at h
      split at h
      · rename_i i hi
        rw [LinComb.vars_smul] at h
        exact .inr ⟨t.1, htv, i, hi, h⟩
      · rename_i hi
        simp only [LinComb.summand, LinComb.vars_eq, List.map_cons, List.map_nil, List.mem_singleton] at h
        subst h
        exact .inl ⟨htv, hi⟩
  · rename_i hn
    refine .inl ⟨h, ?_⟩
    simp only [List.any_eq_true, not_exists, not_and, Bool.not_eq_true] at hn
    obtain ⟨t, ht, rfl⟩ := List.mem_map.1 h
    simpa using hn t ht

theorem vars_substQuad {σ : SMap (LinComb F)} {q : QuadComb F} {y : Variable} (h : y ∈ (substQuad σ q).vars) :
    (y ∈ q.vars ∧ SMap.get σ y = none) ∨ ∃ x ∈ q.vars, ∃ i, SMap.get σ x = some i ∧ y ∈ LinComb.vars i := by
  rw [QuadComb.mem_vars] at h
  rcases h with h | h
  · rcases vars_substLin h with ⟨h1, h2⟩ | ⟨x, hx, h⟩
    · exact .inl ⟨QuadComb.mem_vars.2 (.inl h1), h2⟩
    · exact .inr ⟨x, QuadComb.mem_vars.2 (.inl hx), h⟩
  · rcases vars_substLin h with ⟨h1, h2⟩ | ⟨x, hx, h⟩
    · exact .inl ⟨QuadComb.mem_vars.2 (.inr h1), h2⟩
    · exact .inr ⟨x, QuadComb.mem_vars.2 (.inr hx), h⟩

/-! Directive inputs. -/

theorem val_rebuild {ρ : Assignment F} (h1 : OneIsOne ρ) (q : QuadComb F) :
    (rebuildInput (classifyInput q)).val ρ = q.val ρ := by
  unfold classifyInput
  split
  · rename_i l hl
    have e : LinComb.val ρ l = q.val ρ := by rw [← QuadComb.val_reduce ρ q, QuadComb.val_tryLinear hl ρ h1]
    split
    · rename_i k hk
      rw [rebuildInput, QuadComb.val_ofLin _ _ h1, ← e, LinComb.val_of_tryConstant hk ρ h1]
      have : ρ Variable.one = 1 := h1
      simp [LinComb.summand, LinComb.val, this]
    · rw [rebuildInput, QuadComb.val_ofLin _ _ h1, e]
  · rw [rebuildInput, QuadComb.val_reduce]

theorem vars_rebuild {q : QuadComb F} {y : Variable} (h : y ∈ (rebuildInput (classifyInput q)).vars) :
    y = Variable.one ∨ y ∈ q.vars := by
  unfold classifyInput at h
  split at h
  · rename_i l hl
    split at h
    · rcases QuadComb.vars_ofLin h with h | h
      · exact .inl h
      · simp [LinComb.summand, LinComb.vars_eq] at h; exact .inl h
    · rcases QuadComb.vars_ofLin h with h | h
      · exact .inl h
      · exact .inr (QuadComb.vars_reduce (QuadComb.vars_tryLinear hl h))
  · exact .inr (QuadComb.vars_reduce h)

theorem classify_inl {ρ : Assignment F} (h1 : OneIsOne ρ) {q : QuadComb F} {k : F} (h : classifyInput q = .inl k) :
    q.val ρ = k := by
  have := val_rebuild h1 q
  rw [h, rebuildInput, QuadComb.val_ofLin _ _ h1] at this
  rw [← this]
  have : ρ Variable.one = 1 := h1
  simp [LinComb.summand, LinComb.val, this]

theorem allConst_eq {is : List (F ⊕ QuadComb F)} {ks : List F} (h : allConst is = some ks) : is = ks.map .inl := by
  unfold allConst at h
  rw [mapM_option_eq_some] at h
  induction h with
  | nil => rfl
  | cons h _ ih =>
    rename_i a b _ _ _
    cases a with
    | inl k => simp only [Option.some.injEq] at h; simp [h, ih]
    | inr q => simp at h

theorem allConst_val {ρ : Assignment F} (h1 : OneIsOne ρ) {qs : List (QuadComb F)} {ks : List F}
    (h : allConst (qs.map classifyInput) = some ks) : qs.map (QuadComb.val ρ) = ks := by
  have h := allConst_eq h
  induction qs generalizing ks with
  | nil => cases ks with
    | nil => rfl
    | cons k ks => simp at h
  | cons q qs ih =>
    cases ks with
    | nil => simp at h
    | cons k ks =>
      simp only [List.map_cons, List.cons.injEq] at h
      rw [List.map_cons, classify_inl h1 h.1, ih _ h.2]
      rw [← h.2] at *
      rename_i h0
      have := h0
      simp only [List.map_cons] at this
      unfold allConst at this ⊢
      rw [mapM_option_eq_some] at this ⊢
      cases this with
      | cons _ h => exact h

theorem get_insertConsts_not_mem {σ : SMap (LinComb F)} {os : List Variable} {vs : List F} {x : Variable} (h : x ∉ os) :
    SMap.get (insertConsts σ os vs) x = SMap.get σ x := by
  unfold insertConsts
  induction os generalizing σ vs with
  | nil => simp
  | cons o os ih =>
    cases vs with
    | nil => simp
    | cons v vs =>
      simp only [List.mem_cons, not_or] at h
      rw [List.zip_cons_cons, List.foldl_cons, ih h.2, SMap.get_insert_ne _ _ h.1]

theorem get_insertConsts {σ : SMap (LinComb F)} {os : List Variable} {vs : List F} {x : Variable} {l : LinComb F}
    (h : SMap.get (insertConsts σ os vs) x = some l) :
    SMap.get σ x = some l ∨ ∃ v, (x, v) ∈ os.zip vs ∧ l = LinComb.intoCanonical (LinComb.ofConst v) := by
  unfold insertConsts at h
  induction os generalizing σ vs with
  | nil => simp at h; exact .inl h
  | cons o os ih =>
    cases vs with
    | nil => simp at h; exact .inl h
    | cons v vs =>
      rw [List.zip_cons_cons, List.foldl_cons] at h
      rcases ih h with h | ⟨v', hv', hl⟩
      · rw [SMap.get_insert] at h
        split at h
        · rename_i hx
          simp only [Option.some.injEq] at h
          exact .inr ⟨v, by simp [hx], h.symm⟩
        · exact .inl h
      · exact .inr ⟨v', by simp [hv'], hl⟩

theorem isSome_insertConsts {σ : SMap (LinComb F)} {os : List Variable} {vs : List F} (hl : vs.length = os.length)
    {x : Variable} (h : x ∈ os ∨ (SMap.get σ x).isSome) : (SMap.get (insertConsts σ os vs) x).isSome := by
  unfold insertConsts
  induction os generalizing σ vs with
  | nil => simpa using h
  | cons o os ih =>
    cases vs with
    | nil => simp at hl
    | cons v vs =>
      rw [List.zip_cons_cons, List.foldl_cons]
      apply ih (by simpa using hl)
      rw [SMap.get_insert]
      split
      · exact .inr rfl
      · rename_i hx
        rcases h with h | h
        · rcases List.mem_cons.1 h with h | h
          · exact absurd h hx
          · exact .inl h
        · exact .inr h

theorem val_constImage {ρ : Assignment F} (h1 : OneIsOne ρ) (v : F) :
    LinComb.val ρ (LinComb.intoCanonical (LinComb.ofConst v)) = v := by
  have := LinComb.val_reduce ρ (LinComb.ofConst v)
  unfold LinComb.reduce at this
  rw [this]
  have h1 : ρ Variable.one = 1 := h1
  rw [LinComb.ofConst, LinComb.val_smul, LinComb.val_one, h1, one_mul]

theorem vars_constImage {v : F} {y : Variable} (h : y ∈ LinComb.vars (LinComb.intoCanonical (LinComb.ofConst v))) :
    y = Variable.one := by
  have := LinComb.vars_reduce (l := LinComb.ofConst v) h
  rw [LinComb.ofConst, LinComb.vars_smul] at this
  simpa [LinComb.one, LinComb.summand, LinComb.vars_eq] using this

/-! Case analysis of one step. -/

inductive ConstraintStep (st : RedefState F) (c : Constraint F) : RedefState F → List (Stmt F Z) → Prop
  | keep : ConstraintStep st c st [.constraint ⟨substQuad st.subst c.quad, substLin st.subst c.lin, c.error⟩]
  | subst (v k l l') (hs : LinComb.trySummand (substLin st.subst c.lin) = some (v, k)) (hi : v ∉ st.ignore)
      (hv : SMap.get st.subst v = none) (hl : (substQuad st.subst c.quad).tryLinear = some l)
      (hd : LinComb.div l k = some l') :
      ConstraintStep st c { st with subst := SMap.insert st.subst v (LinComb.intoCanonical l') } []
  | ignore (v k) (hs : LinComb.trySummand (substLin st.subst c.lin) = some (v, k)) (hi : v ∉ st.ignore)
      (hv : SMap.get st.subst v = none) :
      ConstraintStep st c { st with ignore := v :: st.ignore }
        [.constraint ⟨substQuad st.subst c.quad, LinComb.summand k v, c.error⟩]

theorem trySummand_first {f : Variable} {a : F} {l : LinComb F} {v : Variable} {k : F}
    (h : LinComb.trySummand ((f, a) :: l) = some (v, k)) : v = f := by
  unfold LinComb.trySummand at h
  simp only at h
  split at h
  · simp only [Option.some.injEq, Prod.mk.injEq] at h; exact h.1.symm
  · cases h

theorem redefConstraint_step {st st' : RedefState F} {c : Constraint F} {out : List (Stmt F Z)}
    (h : redefConstraint st c = some (st', out)) : ConstraintStep st c st' out := by
  unfold redefConstraint at h
  simp only at h
  split at h
  · rename_i he
    cases h
    exact .keep
  · rename_i f a l he
    split at h
    · cases h; exact .keep
    · rename_i hn
      simp only [not_or, Bool.not_eq_true, Option.isSome_eq_false_iff, Option.isNone_iff_eq_none] at hn
      split at h
      · rename_i v k hs
        have hvf : v = f := trySummand_first (he ▸ hs)
        subst hvf
        split at h
        · rename_i l' hl
          split at h
          · rename_i l'' hd
            cases h
            exact .subst v k l' l'' hs hn.1 hn.2 hl hd
          · cases h
        · cases h
          exact .ignore v k hs hn.1 hn.2
      · cases h; exact .keep

variable {p : ℕ} [Fact p.Prime] (sem : SolverSem (ZMod p) Z)

inductive DirectiveStep (b : Bool) (st : RedefState (ZMod p)) (d : Directive (ZMod p) Z) :
    RedefState (ZMod p) → List (Stmt (ZMod p) Z) → Prop
  | const (ks outs) (hk : allConst ((d.inputs.map (substQuad st.subst)).map classifyInput) = some ks)
      (hx : executeSolver sem d.solver ks [] = .ok outs) (hl : outs.length = d.outputs.length) :
      DirectiveStep b st d { st with subst := insertConsts st.subst d.outputs outs } []
  | keep : DirectiveStep b st d (if b then st else { st with ignore := d.outputs ++ st.ignore })
      [.directive ⟨d.inputs.map (fun q => rebuildInput (classifyInput (substQuad st.subst q))), d.outputs, d.solver⟩]

theorem redefDirective_step {b : Bool} {st st' : RedefState (ZMod p)} {d : Directive (ZMod p) Z}
    {out : List (Stmt (ZMod p) Z)} (h : redefDirective sem b st d = some (st', out)) :
    DirectiveStep sem b st d st' out := by
  unfold redefDirective at h
  simp only at h
  split at h
  · rename_i ks hk
    split at h
    · rename_i outs hx
      split at h
      · rename_i hl
        cases h
        exact .const ks outs (by rw [List.map_map]; exact hk) hx hl
      · cases h
    · cases h
  · simp only [Option.some.injEq, Prod.mk.injEq] at h
    obtain ⟨rfl, rfl⟩ := h
    rw [List.map_map]
    exact .keep

/-- A solver that runs without a table runs the same with any table. -/
theorem executeSolver_nil {s : Solver Z} {xs r : List (ZMod p)} (solvers : List (Solver Z))
    (h : executeSolver sem s xs [] = .ok r) : executeSolver sem s xs solvers = .ok r := by
  cases s with
  | ref i sig => simp [executeSolver] at h
  | _ => exact h

end Zok
