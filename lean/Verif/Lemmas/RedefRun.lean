import Verif.Lemmas.Redef

set_option linter.unusedSectionVars false

/- One step and a whole run of the redefinition optimiser on a flat stream. -/

namespace Zok
variable {Z : Type _} {p : ℕ} [Fact p.Prime] (sem : SolverSem (ZMod p) Z)

/-- The redefinition optimiser on a stream of leaves. -/
def redefFlat (st : RedefState (ZMod p)) :
    List (Bool × Stmt (ZMod p) Z) → Option (RedefState (ZMod p) × List (Stmt (ZMod p) Z))
  | [] => some (st, [])
  | (b, s) :: rest => match redefLeaf sem b st s with
    | none => none
    | some (st1, o1) => match redefFlat st1 rest with
      | none => none
      | some (st2, o2) => some (st2, o1 ++ o2)

/-- Images of the substitution mention only variables that occurred before and are not themselves replaced. -/
structure RedefInv (ment : List Variable) (st : RedefState (ZMod p)) : Prop where
  one : Variable.one ∈ ment
  one_none : SMap.get st.subst Variable.one = none
  img : ∀ x l, SMap.get st.subst x = some l → ∀ y ∈ LinComb.vars l, y ∈ ment ∧ SMap.get st.subst y = none

theorem mem_uses_of_reads {s : Stmt (ZMod p) Z} {x : Variable} (h : x ∈ s.reads) : x ∈ s.uses := by
  cases s with
  | constraint c => exact List.mem_append.2 (.inl h)
  | _ => exact h

theorem redefLeaf_uses {b : Bool} {st st' : RedefState (ZMod p)} {s : Stmt (ZMod p) Z} {out : List (Stmt (ZMod p) Z)}
    {ment : List Variable} (hinv : RedefInv ment st) (hleaf : s.IsLeaf)
    (h : redefLeaf sem b st s = some (st', out)) :
    ∀ t ∈ out, t.IsLeaf ∧ ∀ y ∈ t.uses, (y ∈ ment ∨ y ∈ s.uses) ∧ SMap.get st'.subst y = none := by
  have hq : ∀ q : QuadComb (ZMod p), (∀ x ∈ q.vars, x ∈ s.uses) → ∀ y ∈ (substQuad st.subst q).vars,
      (y ∈ ment ∨ y ∈ s.uses) ∧ SMap.get st.subst y = none := by
    intro q hqv y hy
    rcases vars_substQuad hy with ⟨h1, h2⟩ | ⟨x, _, i, hi, hyi⟩
    · exact ⟨.inr (hqv y h1), h2⟩
    · exact ⟨.inl (hinv.img _ _ hi _ hyi).1, (hinv.img _ _ hi _ hyi).2⟩
  have hl : ∀ l : LinComb (ZMod p), (∀ x ∈ LinComb.vars l, x ∈ s.uses) → ∀ y ∈ LinComb.vars (substLin st.subst l),
      (y ∈ ment ∨ y ∈ s.uses) ∧ SMap.get st.subst y = none := by
    intro l hlv y hy
    rcases vars_substLin hy with ⟨h1, h2⟩ | ⟨x, _, i, hi, hyi⟩
    · exact ⟨.inr (hlv y h1), h2⟩
    · exact ⟨.inl (hinv.img _ _ hi _ hyi).1, (hinv.img _ _ hi _ hyi).2⟩
  cases s with
  | block _ => exact hleaf.elim
  | constraint c =>
    have hqc := hq c.quad (fun x hx => List.mem_append.2 (.inl hx))
    have hlc := hl c.lin (fun x hx => List.mem_append.2 (.inr hx))
    cases redefConstraint_step (h : redefConstraint st c = some (st', out)) with
    | keep =>
      intro t ht
      rw [List.mem_singleton] at ht
      subst ht
      refine ⟨trivial, fun y hy => ?_⟩
      rcases List.mem_append.1 hy with hy | hy
      · exact hqc y hy
      · exact hlc y hy
    | subst v k l l' => simp
    | ignore v k hs hi hv =>
      intro t ht
      rw [List.mem_singleton] at ht
      subst ht
      refine ⟨trivial, fun y hy => ?_⟩
      rcases List.mem_append.1 hy with hy | hy
      · exact hqc y hy
      · simp only [LinComb.summand, LinComb.vars_eq, List.map_cons, List.map_nil, List.mem_singleton] at hy
        subst hy
        have hmem : y ∈ LinComb.vars (substLin st.subst c.lin) := by
          generalize substLin st.subst c.lin = l at hs
          cases l with
          | nil => simp [LinComb.trySummand] at hs
          | cons a l => have := trySummand_first hs; simp [LinComb.vars_eq, this]
        exact hlc y hmem
  | directive d =>
    cases redefDirective_step sem (h : redefDirective sem b st d = some (st', out)) with
    | const => simp
    | keep =>
      intro t ht
      rw [List.mem_singleton] at ht
      subst ht
      refine ⟨trivial, fun y hy => ?_⟩
      have hst : (if b = true then st else { st with ignore := d.outputs ++ st.ignore }).subst = st.subst := by
        split <;> rfl
      rw [hst]
      simp only [Stmt.uses, List.mem_flatMap, List.mem_map] at hy
      obtain ⟨_, ⟨q, hqm, rfl⟩, hy⟩ := hy
      rcases vars_rebuild hy with rfl | hy
      · exact ⟨.inl hinv.one, hinv.one_none⟩
      · exact hq q (fun x hx => List.mem_flatMap.2 ⟨q, hqm, hx⟩) y hy
  | log es =>
    simp only [redefLeaf, Option.some.injEq, Prod.mk.injEq] at h
    obtain ⟨rfl, rfl⟩ := h
    intro t ht
    rw [List.mem_singleton] at ht
    subst ht
    refine ⟨trivial, fun y hy => ?_⟩
    simp only [Stmt.uses, List.mem_flatMap, List.mem_map] at hy
    obtain ⟨_, ⟨e, he, rfl⟩, _, hm, hy⟩ := hy
    obtain ⟨l, hlm, rfl⟩ := List.mem_map.1 hm
    exact hl l (fun x hx => List.mem_flatMap.2 ⟨e, he, List.mem_flatMap.2 ⟨l, hlm, hx⟩⟩) y hy

/-- What a step does to the substitution. -/
theorem redefLeaf_inv {b : Bool} {st st' : RedefState (ZMod p)} {s : Stmt (ZMod p) Z} {out : List (Stmt (ZMod p) Z)}
    {ment : List Variable} (hinv : RedefInv ment st) (hleaf : s.IsLeaf)
    (h : redefLeaf sem b st s = some (st', out))
    (hf : ∀ x, SMap.get st'.subst x ≠ SMap.get st.subst x → SMap.get st.subst x = none ∧ x ∉ ment ∧ x ∉ s.reads) :
    RedefInv (ment ++ s.uses) st' ∧ (∀ x l, SMap.get st.subst x = some l → SMap.get st'.subst x = some l) := by
  have hext : ∀ x l, SMap.get st.subst x = some l → SMap.get st'.subst x = some l := by
    intro x l hx
    by_cases he : SMap.get st'.subst x = SMap.get st.subst x
    · rw [he, hx]
    · have := (hf x he).1
      rw [hx] at this; cases this
  have hkeep : ∀ x ∈ ment, SMap.get st'.subst x = SMap.get st.subst x := by
    intro x hx
    by_cases he : SMap.get st'.subst x = SMap.get st.subst x
    · exact he
    · exact absurd hx (hf x he).2.1
  refine ⟨⟨List.mem_append.2 (.inl hinv.one), by rw [hkeep _ hinv.one, hinv.one_none], ?_⟩, hext⟩
  -- images that were already there
  have hold : ∀ x l, SMap.get st.subst x = some l → ∀ y ∈ LinComb.vars l,
      y ∈ ment ++ s.uses ∧ SMap.get st'.subst y = none := by
    intro x l hx y hy
    obtain ⟨h1, h2⟩ := hinv.img x l hx y hy
    exact ⟨List.mem_append.2 (.inl h1), by rw [hkeep y h1, h2]⟩
  cases s with
  | block _ => exact hleaf.elim
  | log es =>
    simp only [redefLeaf, Option.some.injEq, Prod.mk.injEq] at h
    obtain ⟨rfl, rfl⟩ := h
    exact hold
  | directive d =>
    cases redefDirective_step sem (h : redefDirective sem b st d = some (st', out)) with
    | keep =>
      have hst : (if b = true then st else { st with ignore := d.outputs ++ st.ignore }).subst = st.subst := by
        split <;> rfl
      intro x l hx
      rw [hst] at hx
      exact hold x l hx
    | const ks outs hk hx hl =>
      intro x l hxl y hy
      rcases get_insertConsts hxl with h | ⟨v, _, rfl⟩
      · exact hold x l h y hy
      · have := vars_constImage hy
        subst this
        exact ⟨List.mem_append.2 (.inl hinv.one), by rw [hkeep _ hinv.one, hinv.one_none]⟩
  | constraint c =>
    cases redefConstraint_step (h : redefConstraint st c = some (st', out)) with
    | keep => exact hold
    | ignore => exact hold
    | subst v k l l' hs hi hv hl hd =>
      intro x m hxm y hy
      simp only [SMap.get_insert] at hxm
      split at hxm
      · simp only [Option.some.injEq] at hxm
        subst hxm
        have hy : y ∈ (substQuad st.subst c.quad).vars := by
          refine QuadComb.vars_tryLinear hl ?_
          rw [← LinComb.vars_div hd]
          exact LinComb.vars_reduce hy
        have hvf := hf v (by simp [hv])
        rcases vars_substQuad hy with ⟨h1, h2⟩ | ⟨z, _, i, hi, hyi⟩
        · refine ⟨List.mem_append.2 (.inr (List.mem_append.2 (.inl h1))), ?_⟩
          have hyv : y ≠ v := by rintro rfl; exact hvf.2.2 h1
          simp only [SMap.get_insert, if_neg hyv, h2]
        · exact hold z i hi y hyi
      · exact hold x m hxm y hy

/-- Both directions for one statement, for an assignment that agrees with the substitution after the step. -/
theorem redefLeaf_sat {b : Bool} {st st' : RedefState (ZMod p)} {s : Stmt (ZMod p) Z} {out : List (Stmt (ZMod p) Z)}
    {ρ : Assignment (ZMod p)} (h1 : OneIsOne ρ) (hr : Respects st.subst ρ) (hr' : Respects st'.subst ρ)
    (hleaf : s.IsLeaf) (h : redefLeaf sem b st s = some (st', out)) : s.Sat ρ ↔ SatAll ρ out := by
  cases s with
  | block _ => exact hleaf.elim
  | log es =>
    simp only [redefLeaf, Option.some.injEq, Prod.mk.injEq] at h
    obtain ⟨rfl, rfl⟩ := h
    exact ⟨fun _ => by rw [satAll_cons]; exact ⟨.log _, satAll_nil⟩, fun _ => .log _⟩
  | directive d =>
    cases redefDirective_step sem (h : redefDirective sem b st d = some (st', out)) with
    | keep => exact ⟨fun _ => by rw [satAll_cons]; exact ⟨.directive _, satAll_nil⟩, fun _ => .directive _⟩
    | const => exact ⟨fun _ => satAll_nil, fun _ => .directive _⟩
  | constraint c =>
    cases redefConstraint_step (h : redefConstraint st c = some (st', out)) with
    | keep =>
      rw [satAll_cons, Stmt.sat_constraint, Stmt.sat_constraint]
      simp only [val_substQuad hr, val_substLin hr]
      exact ⟨fun h => ⟨h, satAll_nil⟩, fun h => h.1⟩
    | ignore v k hs hi hv =>
      rw [satAll_cons, Stmt.sat_constraint, Stmt.sat_constraint]
      have e : LinComb.val ρ c.lin = LinComb.val ρ (LinComb.summand k v) := by
        rw [← val_substLin hr c.lin, LinComb.val_of_trySummand hs]
        simp [LinComb.summand, LinComb.val]
      simp only [val_substQuad hr, e]
      exact ⟨fun h => ⟨h, satAll_nil⟩, fun h => h.1⟩
    | subst v k l l' hs hi hv hl hd =>
      refine ⟨fun _ => satAll_nil, fun _ => ?_⟩
      rw [Stmt.sat_constraint]
      have e1 : LinComb.val ρ c.lin = k * ρ v := by
        rw [← val_substLin hr c.lin, LinComb.val_of_trySummand hs]
      have e2 : LinComb.val ρ l = c.quad.val ρ := by
        rw [← val_substQuad hr c.quad, QuadComb.val_tryLinear hl ρ h1]
      have e3 : ρ v = LinComb.val ρ l' := by
        rw [hr' v (LinComb.intoCanonical l') (by simp [SMap.get_insert])]
        exact LinComb.val_reduce ρ l'
      obtain ⟨hk, e4⟩ := LinComb.val_div ρ hd
      rw [e1, e3, e4, e2]
      field_simp

theorem zip_map_self {α β : Type _} {f : α → β} {os : List α} {x : α} {v : β} (h : (x, v) ∈ os.zip (os.map f)) :
    v = f x := by
  induction os with
  | nil => cases h
  | cons o os ih =>
    simp only [List.map_cons, List.zip_cons_cons, List.mem_cons, Prod.mk.injEq] at h
    rcases h with ⟨rfl, rfl⟩ | h
    · rfl
    · exact ih h

theorem redefLeaf_honest {b : Bool} {st st' : RedefState (ZMod p)} {s : Stmt (ZMod p) Z} {out : List (Stmt (ZMod p) Z)}
    {ρ : Assignment (ZMod p)} {solvers : List (Solver Z)} (h1 : OneIsOne ρ) (hr : Respects st.subst ρ)
    (hs : s.Sat ρ) (hh : HonestStmt sem solvers ρ s)
    (hleaf : s.IsLeaf) (h : redefLeaf sem b st s = some (st', out)) :
    Respects st'.subst ρ ∧ ∀ t ∈ out, HonestStmt sem solvers ρ t := by
  cases s with
  | block _ => exact hleaf.elim
  | log es =>
    simp only [redefLeaf, Option.some.injEq, Prod.mk.injEq] at h
    obtain ⟨rfl, rfl⟩ := h
    exact ⟨hr, by simp [HonestStmt]⟩
  | directive d =>
    have hh : executeSolver sem d.solver (d.inputs.map (QuadComb.val ρ)) solvers = .ok (d.outputs.map ρ) := hh
    cases redefDirective_step sem (h : redefDirective sem b st d = some (st', out)) with
    | keep =>
      have hst : (if b = true then st else { st with ignore := d.outputs ++ st.ignore }).subst = st.subst := by
        split <;> rfl
      rw [hst]
      refine ⟨hr, ?_⟩
      intro t ht
      rw [List.mem_singleton] at ht
      subst ht
      have e : ∀ q, ((rebuildInput (classifyInput (substQuad st.subst q))).val ρ) = q.val ρ := by
        intro q; rw [val_rebuild h1, val_substQuad hr]
      simp only [HonestStmt, List.map_map]
      rw [← hh]
      congr 1
      exact List.map_congr_left (fun q _ => e q)
    | const ks outs hk hx hl =>
      refine ⟨?_, by simp⟩
      have e : d.inputs.map (QuadComb.val ρ) = ks := by
        rw [← allConst_val h1 hk, List.map_map]
        exact List.map_congr_left (fun q _ => (val_substQuad hr q).symm)
      rw [e, executeSolver_nil sem solvers hx, Except.ok.injEq] at hh
      intro x l hxl
      rcases get_insertConsts hxl with h | ⟨v, hv, rfl⟩
      · exact hr x l h
      · rw [val_constImage h1]
        rw [hh] at hv
        exact (zip_map_self hv).symm
  | constraint c =>
    rw [Stmt.sat_constraint] at hs
    cases redefConstraint_step (h : redefConstraint st c = some (st', out)) with
    | keep => exact ⟨hr, by simp [HonestStmt]⟩
    | ignore v k hs hi hv => exact ⟨hr, by simp [HonestStmt]⟩
    | subst v k l l' hsm hi hv hl hd =>
      refine ⟨?_, by simp⟩
      intro x m hxm
      simp only [SMap.get_insert] at hxm
      split at hxm
      · rename_i hx
        simp only [Option.some.injEq] at hxm
        subst hx hxm
        have e1 : LinComb.val ρ c.lin = k * ρ x := by
          rw [← val_substLin hr c.lin, LinComb.val_of_trySummand hsm]
        have e2 : LinComb.val ρ l = c.quad.val ρ := by
          rw [← val_substQuad hr c.quad, QuadComb.val_tryLinear hl ρ h1]
        obtain ⟨hk, e4⟩ := LinComb.val_div ρ hd
        have e5 : LinComb.val ρ (LinComb.intoCanonical l') = LinComb.val ρ l' := LinComb.val_reduce ρ l'
        rw [e5, e4, e2, hs, e1]
        field_simp
      · exact hr x m hxm

/-- A whole run: nothing that occurred is replaced later, images are final, emitted statements only use variables that are
never replaced. -/
theorem redefFlat_inv {st st' : RedefState (ZMod p)} {ss : List (Bool × Stmt (ZMod p) Z)} {out : List (Stmt (ZMod p) Z)}
    {ment : List Variable} (hinv : RedefInv ment st) (hleaf : ∀ s ∈ ss, s.2.IsLeaf)
    (h : redefFlat sem st ss = some (st', out)) (hf : ReplacesAtFirstUse sem ment st ss) :
    (∃ ment', RedefInv ment' st' ∧ (∀ x ∈ ment, x ∈ ment')) ∧
    (∀ x l, SMap.get st.subst x = some l → SMap.get st'.subst x = some l) ∧
    (∀ x ∈ ment, SMap.get st.subst x = none → SMap.get st'.subst x = none) ∧
    (∀ t ∈ out, t.IsLeaf ∧ ∀ y ∈ t.uses, SMap.get st'.subst y = none) := by
  induction ss generalizing st out ment with
  | nil =>
    simp only [redefFlat, Option.some.injEq, Prod.mk.injEq] at h
    obtain ⟨rfl, rfl⟩ := h
    exact ⟨⟨ment, hinv, fun _ h => h⟩, fun _ _ h => h, fun _ _ h => h, by simp⟩
  | cons bs ss ih =>
    obtain ⟨b, s⟩ := bs
    rw [redefFlat] at h
    split at h
    · cases h
    · rename_i st1 o1 h1
      split at h
      · cases h
      · rename_i st2 o2 h2
        simp only [Option.some.injEq, Prod.mk.injEq] at h
        obtain ⟨rfl, rfl⟩ := h
        obtain ⟨hf1, hf2⟩ := hf st1 o1 h1
        have hl := hleaf (b, s) (by simp)
        obtain ⟨hinv1, hext1⟩ := redefLeaf_inv sem hinv hl h1 hf1
        obtain ⟨⟨ment', hinv', hsub⟩, hext2, hnone, hout⟩ := ih hinv1 (fun s hs => hleaf s (by simp [hs])) h2 hf2
        refine ⟨⟨ment', hinv', fun x hx => hsub x (List.mem_append.2 (.inl hx))⟩,
          fun x l hx => hext2 x l (hext1 x l hx), ?_, ?_⟩
        · intro x hx hn
          refine hnone x (List.mem_append.2 (.inl hx)) ?_
          by_cases he : SMap.get st1.subst x = SMap.get st.subst x
          · rw [he, hn]
          · exact absurd hx (hf1 x he).2.1
        · intro t ht
          rcases List.mem_append.1 ht with ht | ht
          · obtain ⟨hlt, hu⟩ := redefLeaf_uses sem hinv hl h1 t ht
            refine ⟨hlt, fun y hy => ?_⟩
            obtain ⟨hm, hn⟩ := hu y hy
            exact hnone y (List.mem_append.2 hm) hn
          · exact hout t ht

theorem respects_of_ext {σ σ' : SMap (LinComb (ZMod p))} {ρ : Assignment (ZMod p)}
    (h : ∀ x l, SMap.get σ x = some l → SMap.get σ' x = some l) (hr : Respects σ' ρ) : Respects σ ρ :=
  fun x l hx => hr x l (h x l hx)

/-- Soundness along a run, for an assignment that agrees with the final substitution. -/
theorem redefFlat_sat {st st' : RedefState (ZMod p)} {ss : List (Bool × Stmt (ZMod p) Z)} {out : List (Stmt (ZMod p) Z)}
    {ment : List Variable} (hinv : RedefInv ment st) (hleaf : ∀ s ∈ ss, s.2.IsLeaf)
    (h : redefFlat sem st ss = some (st', out)) (hf : ReplacesAtFirstUse sem ment st ss)
    {ρ : Assignment (ZMod p)} (h1 : OneIsOne ρ) (hr' : Respects st'.subst ρ) :
    (∀ s ∈ ss, s.2.Sat ρ) ↔ SatAll ρ out := by
  induction ss generalizing st out ment with
  | nil =>
    simp only [redefFlat, Option.some.injEq, Prod.mk.injEq] at h
    obtain ⟨rfl, rfl⟩ := h
    simp [satAll_nil]
  | cons bs ss ih =>
    obtain ⟨b, s⟩ := bs
    rw [redefFlat] at h
    split at h
    · cases h
    · rename_i st1 o1 h1'
      split at h
      · cases h
      · rename_i st2 o2 h2
        simp only [Option.some.injEq, Prod.mk.injEq] at h
        obtain ⟨rfl, rfl⟩ := h
        obtain ⟨hf1, hf2⟩ := hf st1 o1 h1'
        have hl := hleaf (b, s) (by simp)
        have hl2 : ∀ s ∈ ss, s.2.IsLeaf := fun s hs => hleaf s (by simp [hs])
        obtain ⟨hinv1, hext1⟩ := redefLeaf_inv sem hinv hl h1' hf1
        have hext2 := (redefFlat_inv sem hinv1 hl2 h2 hf2).2.1
        have hr1 := respects_of_ext hext2 hr'
        have hr0 := respects_of_ext hext1 hr1
        rw [List.forall_mem_cons, satAll_append, ih hinv1 hl2 h2 hf2, redefLeaf_sat sem h1 hr0 hr1 hl h1']

/-- Completeness along a run: an honest satisfying assignment of the input is one of the output, with no condition on the
order of uses. -/
theorem redefFlat_honest {st st' : RedefState (ZMod p)} {ss : List (Bool × Stmt (ZMod p) Z)} {out : List (Stmt (ZMod p) Z)}
    (hleaf : ∀ s ∈ ss, s.2.IsLeaf) (h : redefFlat sem st ss = some (st', out)) {solvers : List (Solver Z)}
    {ρ : Assignment (ZMod p)} (h1 : OneIsOne ρ) (hr : Respects st.subst ρ)
    (hs : ∀ s ∈ ss, s.2.Sat ρ) (hh : ∀ s ∈ ss, HonestStmt sem solvers ρ s.2) :
    Respects st'.subst ρ ∧ SatAll ρ out ∧ ∀ t ∈ out, HonestStmt sem solvers ρ t := by
  induction ss generalizing st out with
  | nil =>
    simp only [redefFlat, Option.some.injEq, Prod.mk.injEq] at h
    obtain ⟨rfl, rfl⟩ := h
    exact ⟨hr, satAll_nil, by simp⟩
  | cons bs ss ih =>
    obtain ⟨b, s⟩ := bs
    rw [redefFlat] at h
    split at h
    · cases h
    · rename_i st1 o1 h1'
      split at h
      · cases h
      · rename_i st2 o2 h2
        simp only [Option.some.injEq, Prod.mk.injEq] at h
        obtain ⟨rfl, rfl⟩ := h
        have hl := hleaf (b, s) (by simp)
        have hs0 := hs (b, s) (by simp)
        obtain ⟨hr1, hh1⟩ := redefLeaf_honest sem h1 hr hs0 (hh (b, s) (by simp)) hl h1'
        obtain ⟨hr2, hs2, hh2⟩ := ih (fun s hs => hleaf s (by simp [hs])) h2 hr1 (fun s h => hs s (by simp [h]))
          (fun s h => hh s (by simp [h]))
        refine ⟨hr2, ?_, ?_⟩
        · rw [satAll_append]
          exact ⟨(redefLeaf_sat sem h1 hr hr1 hl h1').1 hs0, hs2⟩
        · intro t ht
          rcases List.mem_append.1 ht with ht | ht
          · exact hh1 t ht
          · exact hh2 t ht

/-- The extension of an assignment by a substitution. -/
def extendBy (σ : SMap (LinComb (ZMod p))) (ρ : Assignment (ZMod p)) : Assignment (ZMod p) := fun x =>
  match SMap.get σ x with
  | some l => LinComb.val ρ l
  | none => ρ x

theorem extendBy_none {σ : SMap (LinComb (ZMod p))} {ρ : Assignment (ZMod p)} {x : Variable} (h : SMap.get σ x = none) :
    extendBy σ ρ x = ρ x := by simp [extendBy, h]

theorem extendBy_respects {st : RedefState (ZMod p)} {ment : List Variable} (hinv : RedefInv ment st)
    (ρ : Assignment (ZMod p)) : Respects st.subst (extendBy st.subst ρ) := by
  intro x l hx
  have e : extendBy st.subst ρ x = LinComb.val ρ l := by simp [extendBy, hx]
  rw [e]
  apply LinComb.val_congr
  intro y hy
  exact (extendBy_none (hinv.img x l hx y hy).2).symm

theorem sat_congr_uses {ρ σ : Assignment (ZMod p)} {t : Stmt (ZMod p) Z} (hl : t.IsLeaf) (h : ∀ y ∈ t.uses, ρ y = σ y)
    (hs : t.Sat ρ) : t.Sat σ := by
  cases t with
  | block _ => exact hl.elim
  | constraint c =>
    rw [Stmt.sat_constraint] at hs ⊢
    rw [← QuadComb.val_congr (ρ := ρ) (σ := σ) (fun x hx => h x (List.mem_append.2 (.inl hx))),
      ← LinComb.val_congr (ρ := ρ) (σ := σ) (fun x hx => h x (List.mem_append.2 (.inr hx)))]
    exact hs
  | directive d => exact .directive d
  | log l => exact .log l

end Zok
