import Verif.Lemmas.RedefBlocks

set_option linter.unusedSectionVars false

/- Scoping through the redefinition optimiser: single assignment implies the first-use discipline, and is preserved. -/

namespace Zok
variable {Z : Type _} {p : ℕ} [Fact p.Prime] (sem : SolverSem (ZMod p) Z)

theorem Stmt.mem_vars_of_uses {F : Type _} [Field F] [DecidableEq F] {s : Stmt F Z} {x : Variable} (h : x ∈ s.uses) : x ∈ s.vars := by
  cases s with
  | block _ => cases h
  | constraint c => exact h
  | directive d => exact List.mem_append.2 (.inl h)
  | log l => exact h

/-- Dropping statements keeps freshness. -/
theorem DirectivesFresh.dropped {σ : SMap (LinComb (ZMod p))} {a b : List (Stmt (ZMod p) Z)} (hd : Dropped σ a b)
    {seen seen' : List Variable} (hs : ∀ x ∈ seen', x ∈ seen) (hf : DirectivesFresh seen a) : DirectivesFresh seen' b := by
  induction hd generalizing seen seen' with
  | nil => trivial
  | keep s _ ih =>
    obtain ⟨h1, h2⟩ := hf
    refine ⟨?_, ih ?_ h2⟩
    · cases s with
      | directive d => exact fun o ho hc => h1 o ho (hs o hc)
      | _ => trivial
    · intro x hx
      rcases List.mem_append.1 hx with hx | hx
      · exact List.mem_append.2 (.inl (hs x hx))
      · exact List.mem_append.2 (.inr hx)
  | drop d o _ _ _ ih =>
    obtain ⟨h1, h2⟩ := hf
    exact ih (fun x hx => List.mem_append.2 (.inl (hs x hx))) h2

theorem redefFlat_fresh {st st' : RedefState (ZMod p)} {ss : List (Bool × Stmt (ZMod p) Z)} {out : List (Stmt (ZMod p) Z)}
    {ment : List Variable} (hinv : RedefInv ment st) (hleaf : ∀ s ∈ ss, s.2.IsLeaf)
    (h : redefFlat sem st ss = some (st', out)) (hf : ReplacesAtFirstUse sem ment st ss)
    {seen seen' : List Variable} (hm : ∀ x ∈ ment, x ∈ seen) (hs : ∀ x ∈ seen', x ∈ seen)
    (hfr : DirectivesFresh seen (ss.map Prod.snd)) : DirectivesFresh seen' out := by
  induction ss generalizing st out ment seen seen' with
  | nil =>
    simp only [redefFlat, Option.some.injEq, Prod.mk.injEq] at h
    obtain ⟨rfl, rfl⟩ := h
    trivial
  | cons bs ss ih =>
    obtain ⟨b, s⟩ := bs
    rw [redefFlat] at h
    split at h
    · cases h
    · rename_i st1 o1 h1
      split at h
      · cases h
      · rename_i st2 o2 h2
        simp only [Option.some.injEq, Prod.mk.injEq] at h
        obtain ⟨rfl, rfl⟩ := h
        obtain ⟨hf1, hf2⟩ := hf st1 o1 h1
        have hl : s.IsLeaf := hleaf (b, s) (by simp)
        have hl2 : ∀ s ∈ ss, s.2.IsLeaf := fun s hs => hleaf s (by simp [hs])
        obtain ⟨hinv1, -⟩ := redefLeaf_inv sem hinv hl h1 hf1
        rw [List.map_cons] at hfr
        obtain ⟨hr1, hr2⟩ := hfr
        have hm2 : ∀ x ∈ ment ++ s.uses, x ∈ seen ++ s.vars := by
          intro x hx
          rcases List.mem_append.1 hx with hx | hx
          · exact List.mem_append.2 (.inl (hm x hx))
          · exact List.mem_append.2 (.inr (Stmt.mem_vars_of_uses hx))
        have hu := redefLeaf_uses sem hinv hl h1
        -- the output of one step is empty or a single statement
        have hnil : o1 = [] → DirectivesFresh seen' (o1 ++ o2) := by
          rintro rfl
          exact ih hinv1 hl2 h2 hf2 hm2 (fun x hx => List.mem_append.2 (.inl (hs x hx))) hr2
        have hone : ∀ t, o1 = [t] → (∀ x ∈ t.vars, x ∈ t.uses ∨ x ∈ s.vars) →
            (match t with | .directive d => ∀ o ∈ d.outputs, o ∉ seen' | _ => True) → DirectivesFresh seen' (o1 ++ o2) := by
          intro t ht hv hd
          subst ht
          refine ⟨?_, ih hinv1 hl2 h2 hf2 hm2 ?_ hr2⟩
          · cases t <;> exact hd
          · intro x hx
            rcases List.mem_append.1 hx with hx | hx
            · exact List.mem_append.2 (.inl (hs x hx))
            · rcases hv x hx with hx | hx
              · exact hm2 x (List.mem_append.2 ((hu t (by simp)).2 x hx).1)
              · exact List.mem_append.2 (.inr hx)
        cases s with
        | block _ => exact hl.elim
        | log es =>
          simp only [redefLeaf, Option.some.injEq, Prod.mk.injEq] at h1
          exact hone _ h1.2.symm (fun x hx => .inl hx) trivial
        | constraint c =>
          cases redefConstraint_step (h1 : redefConstraint st c = some (st1, o1)) with
          | keep => exact hone _ rfl (fun x hx => .inl hx) trivial
          | ignore => exact hone _ rfl (fun x hx => .inl hx) trivial
          | subst => exact hnil rfl
        | directive d =>
          cases redefDirective_step sem (h1 : redefDirective sem b st d = some (st1, o1)) with
          | const => exact hnil rfl
          | keep =>
            refine hone _ rfl ?_ ?_
            · intro x hx
              rcases List.mem_append.1 hx with hx | hx
              · exact .inl hx
              · exact .inr (List.mem_append.2 (.inr hx))
            · exact fun o ho hc => hr1 o ho (hs o hc)

theorem redefConstraint_binds {F : Type _} [Field F] [DecidableEq F] {st st' : RedefState F} {c : Constraint F}
    {out : List (Stmt F Z)} {x : Variable} (hc : c.lin = [(x, 1)]) (h : redefConstraint st c = some (st', out)) :
    x ∈ st'.ignore ∨ (SMap.get st'.subst x).isSome := by
  by_cases hx : x ∈ st.ignore ∨ (SMap.get st.subst x).isSome
  · cases redefConstraint_step h with
    | keep => exact hx
    | ignore => exact hx.imp (fun h => List.mem_cons.2 (.inr h)) id
    | subst v k l l' =>
      refine hx.imp id (fun h => ?_)
      simp only [SMap.get_insert]
      split
      · rfl
      · exact h
  · have hs : substLin st.subst c.lin = [(x, 1)] := by
      rw [hc, substLin, if_neg]
      simp only [List.any_cons, List.any_nil, Bool.or_false]
      exact fun h => hx (.inr h)
    unfold redefConstraint at h
    simp only [hs] at h
    rw [if_neg hx] at h
    have ht : LinComb.trySummand [(x, (1 : F))] = some (x, 1) := by simp [LinComb.trySummand]
    rw [ht] at h
    simp only at h
    split at h
    · split at h
      · cases h
        right; simp
      · cases h
    · cases h
      left; simp

/-- Single assignment implies the first-use discipline. -/
theorem replacesAtFirstUse_of_scoped {ss : List (Stmt (ZMod p) Z)} {st : RedefState (ZMod p)}
    {ment seen seenF : List Variable} (hinv : RedefInv ment st)
    (hscope : WellScoped seen ss) (hfr : DirectivesFresh seenF ss)
    (hsub : ∀ x ∈ seen, x ∈ seenF) (hmsub : ∀ x ∈ ment, x ∈ seenF)
    (hseen : ∀ x ∈ seen, x ∈ st.ignore ∨ (SMap.get st.subst x).isSome)
    (hment : ∀ x ∈ ment, x ∈ st.ignore ∨ (SMap.get st.subst x).isSome)
    (hdom : ∀ x, (SMap.get st.subst x).isSome → x ∈ seenF) :
    ReplacesAtFirstUse sem ment st (ss.map (fun s => (false, s))) := by
  induction ss generalizing st ment seen seenF with
  | nil => trivial
  | cons s ss ih =>
    rw [List.map_cons]
    intro st' out h
    obtain ⟨hw, hw2⟩ := hscope
    obtain ⟨hr, hr2⟩ := hfr
    -- what is bound stays bound
    have hkeep : ∀ x, (x ∈ st.ignore ∨ (SMap.get st.subst x).isSome) → (x ∈ st'.ignore ∨ (SMap.get st'.subst x).isSome) := by
      intro x hx
      rcases hx with hx | hx
      · cases s with
        | block _ => exact hw.elim
        | log es =>
          simp only [redefLeaf, Option.some.injEq, Prod.mk.injEq] at h
          rw [← h.1]; exact .inl hx
        | constraint c =>
          cases redefConstraint_step (h : redefConstraint st c = some (st', out)) with
          | keep => exact .inl hx
          | ignore => exact .inl (List.mem_cons.2 (.inr hx))
          | subst => exact .inl hx
        | directive d =>
          cases redefDirective_step sem (h : redefDirective sem false st d = some (st', out)) with
          | const => exact .inl hx
          | keep => exact .inl (by simp [hx])
      · exact .inr (redefLeaf_dom sem h x hx)
    have hleaf : s.IsLeaf := by
      cases s with
      | block _ => exact hw.elim
      | _ => trivial
    have hreads : ∀ x ∈ s.reads, x ∈ seen := by
      cases s with
      | block _ => exact hw.elim
      | constraint c => exact hw.1
      | directive d => exact hw
      | log l => exact hw
    -- every variable of the statement is bound afterwards
    have hvars : ∀ x ∈ s.vars, x ∈ st'.ignore ∨ (SMap.get st'.subst x).isSome := by
      intro x hx
      cases s with
      | block _ => exact hw.elim
      | log l => exact hkeep x (hseen x (hw x hx))
      | constraint c =>
        rcases List.mem_append.1 hx with hx | hx
        · exact hkeep x (hseen x (hw.1 x hx))
        · rcases hw.2 with ⟨y, hy⟩ | hl
          · rw [hy] at hx
            simp only [LinComb.vars_eq, List.map_cons, List.map_nil, List.mem_singleton] at hx
            subst hx
            exact redefConstraint_binds hy h
          · exact hkeep x (hseen x (hl x hx))
      | directive d =>
        rcases List.mem_append.1 hx with hx | hx
        · exact hkeep x (hseen x (hw x hx))
        · cases redefDirective_step sem (h : redefDirective sem false st d = some (st', out)) with
          | const ks outs hk hx' hl => exact .inr (isSome_insertConsts hl (.inl hx))
          | keep => exact .inl (by simp [hx])
    have hstep : ∀ x, SMap.get st'.subst x ≠ SMap.get st.subst x →
        SMap.get st.subst x = none ∧ x ∉ ment ∧ x ∉ s.reads ∧ x ∈ s.vars := by
      intro x hx
      cases s with
      | block _ => exact hw.elim
      | log es =>
        simp only [redefLeaf, Option.some.injEq, Prod.mk.injEq] at h
        rw [← h.1] at hx
        exact absurd rfl hx
      | directive d =>
        cases redefDirective_step sem (h : redefDirective sem false st d = some (st', out)) with
        | keep => exact absurd rfl hx
        | const ks outs hk hx' hl =>
          have ho : x ∈ d.outputs := by
            by_contra hc
            exact hx (get_insertConsts_not_mem hc)
          have hnf := hr x ho
          refine ⟨?_, fun hc => hnf (hmsub x hc), fun hc => hnf (hsub x (hreads x hc)), List.mem_append.2 (.inr ho)⟩
          by_contra hc
          exact hnf (hdom x (Option.isSome_iff_ne_none.2 hc))
      | constraint c =>
        cases redefConstraint_step (h : redefConstraint st c = some (st', out)) with
        | keep => exact absurd rfl hx
        | ignore => exact absurd rfl hx
        | subst v k l l' hs hi hv hl hd =>
          have hxv : x = v := by
            by_contra hc
            exact hx (SMap.get_insert_ne _ _ hc)
          subst hxv
          have hmem : x ∈ LinComb.vars (substLin st.subst c.lin) := by
            generalize substLin st.subst c.lin = l at hs
            cases l with
            | nil => simp [LinComb.trySummand] at hs
            | cons a l => have := trySummand_first hs; simp [LinComb.vars_eq, this]
          have hnot : ¬ (x ∈ st.ignore ∨ (SMap.get st.subst x).isSome) := by
            rintro (h | h)
            · exact hi h
            · rw [hv] at h; cases h
          rcases vars_substLin hmem with ⟨h1, -⟩ | ⟨z, _, i, hi', hyi⟩
          · exact ⟨hv, fun hc => hnot (hment x hc), fun hc => hnot (hseen x (hreads x hc)), List.mem_append.2 (.inr h1)⟩
          · exact absurd (hment x (hinv.img _ _ hi' _ hyi).1) hnot
    have hf : ∀ x, SMap.get st'.subst x ≠ SMap.get st.subst x →
        SMap.get st.subst x = none ∧ x ∉ ment ∧ x ∉ s.reads := fun x hx => ⟨(hstep x hx).1, (hstep x hx).2.1, (hstep x hx).2.2.1⟩
    refine ⟨hf, ?_⟩
    obtain ⟨hinv', -⟩ := redefLeaf_inv sem hinv hleaf h hf
    refine ih hinv' hw2 hr2 ?_ ?_ ?_ ?_ ?_
    · intro x hx
      rcases List.mem_append.1 hx with hx | hx
      · exact List.mem_append.2 (.inl (hsub x hx))
      · exact List.mem_append.2 (.inr hx)
    · intro x hx
      rcases List.mem_append.1 hx with hx | hx
      · exact List.mem_append.2 (.inl (hmsub x hx))
      · exact List.mem_append.2 (.inr (Stmt.mem_vars_of_uses hx))
    · intro x hx
      rcases List.mem_append.1 hx with hx | hx
      · exact hkeep x (hseen x hx)
      · exact hvars x hx
    · intro x hx
      rcases List.mem_append.1 hx with hx | hx
      · exact hkeep x (hment x hx)
      · exact hvars x (Stmt.mem_vars_of_uses hx)
    · intro x hx
      by_cases he : SMap.get st'.subst x = SMap.get st.subst x
      · rw [he] at hx
        exact List.mem_append.2 (.inl (hdom x hx))
      · exact List.mem_append.2 (.inr (hstep x he).2.2.2)

theorem WellScoped.mono {F : Type _} [Field F] [DecidableEq F] {seen seen' : List Variable} (h : ∀ x ∈ seen, x ∈ seen') {ss : List (Stmt F Z)}
    (hf : WellScoped seen ss) : WellScoped seen' ss := by
  induction ss generalizing seen seen' with
  | nil => trivial
  | cons s ss ih =>
    obtain ⟨h1, h2⟩ := hf
    refine ⟨?_, ih ?_ h2⟩
    · cases s with
      | block _ => exact h1
      | constraint c => exact ⟨fun x hx => h x (h1.1 x hx), h1.2.imp id (fun h' x hx => h x (h' x hx))⟩
      | directive d => exact fun x hx => h x (h1 x hx)
      | log l => exact fun x hx => h x (h1 x hx)
    · intro x hx
      rcases List.mem_append.1 hx with hx | hx
      · exact List.mem_append.2 (.inl (h x hx))
      · exact List.mem_append.2 (.inr hx)

/-- Dropping directives whose outputs are not used keeps scoping. -/
theorem WellScoped.dropped {σ : SMap (LinComb (ZMod p))} {a b : List (Stmt (ZMod p) Z)} (hd : Dropped σ a b)
    {seen seen' : List Variable} (hs : ∀ x ∈ seen, SMap.get σ x = none → x ∈ seen')
    (hu : ∀ t ∈ a, ∀ y ∈ t.uses, SMap.get σ y = none) (hw : WellScoped seen a) : WellScoped seen' b := by
  induction hd generalizing seen seen' with
  | nil => trivial
  | keep s _ ih =>
    obtain ⟨h1, h2⟩ := hw
    have hu1 := hu s (by simp)
    refine ⟨?_, ih ?_ (fun t ht => hu t (by simp [ht])) h2⟩
    · cases s with
      | block _ => exact h1
      | constraint c =>
        refine ⟨fun x hx => hs x (h1.1 x hx) (hu1 x (List.mem_append.2 (.inl hx))), ?_⟩
        rcases h1.2 with h | h
        · exact .inl h
        · exact .inr (fun x hx => hs x (h x hx) (hu1 x (List.mem_append.2 (.inr hx))))
      | directive d => exact fun x hx => hs x (h1 x hx) (hu1 x hx)
      | log l => exact fun x hx => hs x (h1 x hx) (hu1 x hx)
    · intro x hx hn
      rcases List.mem_append.1 hx with hx | hx
      · exact List.mem_append.2 (.inl (hs x hx hn))
      · exact List.mem_append.2 (.inr hx)
  | drop d o ho hsm _ ih =>
    obtain ⟨h1, h2⟩ := hw
    refine ih ?_ (fun t ht => hu t (by simp [ht])) h2
    intro x hx hn
    rcases List.mem_append.1 hx with hx | hx
    · exact hs x hx hn
    · rcases List.mem_append.1 hx with hx | hx
      · exact hs x (h1 x hx) hn
      · rw [ho, List.mem_singleton] at hx
        subst hx
        rw [hn] at hsm; cases hsm

theorem redefFlat_scoped {st st' : RedefState (ZMod p)} {ss : List (Bool × Stmt (ZMod p) Z)} {out : List (Stmt (ZMod p) Z)}
    {σf : SMap (LinComb (ZMod p))} (h : redefFlat sem st ss = some (st', out))
    (hu : ∀ t ∈ out, ∀ y ∈ t.uses, SMap.get σf y = none)
    (hdom : ∀ x, (SMap.get st'.subst x).isSome → (SMap.get σf x).isSome)
    {seen seen' : List Variable} (h1 : Variable.one ∈ seen')
    (himg : ∀ x l, SMap.get st.subst x = some l → ∀ y ∈ LinComb.vars l, y ∈ seen)
    (hs : ∀ x ∈ seen, SMap.get σf x = none → x ∈ seen')
    (hone : Variable.one ∈ seen)
    (hw : WellScoped seen (ss.map Prod.snd)) : WellScoped seen' out := by
  induction ss generalizing st out seen seen' with
  | nil =>
    simp only [redefFlat, Option.some.injEq, Prod.mk.injEq] at h
    obtain ⟨rfl, rfl⟩ := h
    trivial
  | cons bs ss ih =>
    obtain ⟨b, s⟩ := bs
    rw [redefFlat] at h
    split at h
    · cases h
    · rename_i st1 o1 he
      split at h
      · cases h
      · rename_i st2 o2 h2
        simp only [Option.some.injEq, Prod.mk.injEq] at h
        obtain ⟨rfl, rfl⟩ := h
        rw [List.map_cons] at hw
        obtain ⟨hw1, hw2⟩ := hw
        simp only at hw1
        have hu2 : ∀ t ∈ o2, ∀ y ∈ t.uses, SMap.get σf y = none := fun t ht => hu t (List.mem_append.2 (.inr ht))
        have hone2 : ∀ l, Variable.one ∈ seen ++ l := fun l => List.mem_append.2 (.inl hone)
        have hone2' : ∀ l, Variable.one ∈ seen' ++ l := fun l => List.mem_append.2 (.inl h1)
        -- variables of substituted combinations
        have hl : ∀ l : LinComb (ZMod p), (∀ x ∈ LinComb.vars l, x ∈ seen) → ∀ y ∈ LinComb.vars (substLin st.subst l), y ∈ seen := by
          intro l hlv y hy
          rcases vars_substLin hy with ⟨h1, -⟩ | ⟨x, _, i, hi, hyi⟩
          · exact hlv y h1
          · exact himg _ _ hi _ hyi
        have hq : ∀ q : QuadComb (ZMod p), (∀ x ∈ q.vars, x ∈ seen) → ∀ y ∈ (substQuad st.subst q).vars, y ∈ seen := by
          intro q hqv y hy
          rcases vars_substQuad hy with ⟨h1, -⟩ | ⟨x, _, i, hi, hyi⟩
          · exact hqv y h1
          · exact himg _ _ hi _ hyi
        have himg1 : (∀ x l, SMap.get st1.subst x = some l → ∀ y ∈ LinComb.vars l, y ∈ seen) →
            ∀ x l, SMap.get st1.subst x = some l → ∀ y ∈ LinComb.vars l, y ∈ seen ++ s.vars :=
          fun h x l hx y hy => List.mem_append.2 (.inl (h x l hx y hy))
        have hsApp : ∀ {vs : List Variable}, (∀ x ∈ s.vars, SMap.get σf x = none → x ∈ seen' ++ vs) →
            ∀ x ∈ seen ++ s.vars, SMap.get σf x = none → x ∈ seen' ++ vs := by
          intro vs hvs x hx hn
          rcases List.mem_append.1 hx with hx | hx
          · exact List.mem_append.2 (.inl (hs x hx hn))
          · exact hvs x hx hn
        have hdom1 := fun x hx => hdom x (redefFlat_dom sem h2 x hx)
        cases s with
        | block _ => exact hw1.elim
        | log es =>
          simp only [redefLeaf, Option.some.injEq, Prod.mk.injEq] at he
          obtain ⟨rfl, rfl⟩ := he
          have hu1 := hu _ (List.mem_append.2 (.inl (List.mem_singleton.2 rfl)))
          refine ⟨?_, ih h2 hu2 (hone2' _) (himg1 himg) (hsApp (fun x hx hn => List.mem_append.2 (.inl (hs x (hw1 x hx) hn)))) (hone2 _) hw2⟩
          intro y hy
          refine hs y ?_ (hu1 y hy)
          simp only [List.mem_flatMap, List.mem_map] at hy
          obtain ⟨_, ⟨e, he, rfl⟩, _, hm, hy⟩ := hy
          obtain ⟨l, hlm, rfl⟩ := List.mem_map.1 hm
          exact hl l (fun x hx => hw1 x (List.mem_flatMap.2 ⟨e, he, List.mem_flatMap.2 ⟨l, hlm, hx⟩⟩)) y hy
        | directive d =>
          cases redefDirective_step sem (he : redefDirective sem b st d = some (st1, o1)) with
          | const ks outs hk hx hlen =>
            refine WellScoped.mono ?_ (ih h2 hu2 (seen' := seen' ++ []) (hone2' _) (himg1 ?_) (hsApp ?_) (hone2 _) hw2)
            · simp
            · intro x l hxl y hy
              rcases get_insertConsts hxl with h | ⟨v, _, rfl⟩
              · exact himg x l h y hy
              · have := vars_constImage hy
                subst this
                exact hone
            · intro x hx hn
              rcases List.mem_append.1 hx with hx | hx
              · exact List.mem_append.2 (.inl (hs x (hw1 x hx) hn))
              · have := hdom1 x (isSome_insertConsts hlen (.inl hx))
                rw [hn] at this; cases this
          | keep =>
            have hst : (if b = true then st else { st with ignore := d.outputs ++ st.ignore }).subst = st.subst := by
              split <;> rfl
            have hu1 := hu _ (List.mem_append.2 (.inl (List.mem_singleton.2 rfl)))
            refine ⟨?_, ih h2 hu2 (hone2' _) (himg1 (by rw [hst]; exact himg)) (hsApp ?_) (hone2 _) hw2⟩
            · intro y hy
              refine hs y ?_ (hu1 y hy)
              simp only [List.mem_flatMap, List.mem_map] at hy
              obtain ⟨_, ⟨q, hqm, rfl⟩, hy⟩ := hy
              rcases vars_rebuild hy with rfl | hy
              · exact hone
              · exact hq q (fun x hx => hw1 x (List.mem_flatMap.2 ⟨q, hqm, hx⟩)) y hy
            · intro x hx hn
              rcases List.mem_append.1 hx with hx | hx
              · exact List.mem_append.2 (.inl (hs x (hw1 x hx) hn))
              · exact List.mem_append.2 (.inr (List.mem_append.2 (.inr hx)))
        | constraint c =>
          obtain ⟨hwq, hwl⟩ := hw1
          have hqv := hq c.quad hwq
          cases redefConstraint_step (he : redefConstraint st c = some (st1, o1)) with
          | keep =>
            have hu1 := hu _ (List.mem_append.2 (.inl (List.mem_singleton.2 rfl)))
            refine ⟨⟨fun y hy => hs y (hqv y hy) (hu1 y (List.mem_append.2 (.inl hy))), ?_⟩,
              ih h2 hu2 (hone2' _) (himg1 himg) (hsApp ?_) (hone2 _) hw2⟩
            · rcases hwl with ⟨x, hx⟩ | hwl
              · by_cases hsx : SMap.get st.subst x = none
                · left
                  refine ⟨x, ?_⟩
                  rw [hx, substLin, if_neg]
                  simp [hsx]
                · right
                  intro y hy
                  refine hs y ?_ (hu1 y (List.mem_append.2 (.inr hy)))
                  rcases vars_substLin hy with ⟨h1, h2⟩ | ⟨z, _, i, hi, hyi⟩
                  · rw [hx] at h1
                    simp only [LinComb.vars_eq, List.map_cons, List.map_nil, List.mem_singleton] at h1
                    subst h1
                    exact absurd h2 hsx
                  · exact himg _ _ hi _ hyi
              · right
                exact fun y hy => hs y (hl c.lin hwl y hy) (hu1 y (List.mem_append.2 (.inr hy)))
            · intro x hx hn
              rcases List.mem_append.1 hx with hx | hx
              · exact List.mem_append.2 (.inl (hs x (hwq x hx) hn))
              · rcases hwl with ⟨y, hy⟩ | hwl
                · rw [hy] at hx
                  simp only [LinComb.vars_eq, List.map_cons, List.map_nil, List.mem_singleton] at hx
                  subst hx
                  have hsx : SMap.get st.subst x = none := by
                    by_contra hc
                    have := hdom1 x (Option.isSome_iff_ne_none.2 hc)
                    rw [hn] at this; cases this
                  refine List.mem_append.2 (.inr (List.mem_append.2 (.inr ?_)))
                  have : substLin st.subst c.lin = [(x, 1)] := by
                    rw [hy, substLin, if_neg]
                    simp [hsx]
                  rw [this]
                  simp [LinComb.vars_eq]
                · exact List.mem_append.2 (.inl (hs x (hwl x hx) hn))
          | ignore v k hsm hi hv =>
            have hu1 := hu _ (List.mem_append.2 (.inl (List.mem_singleton.2 rfl)))
            have hmem : v ∈ LinComb.vars (substLin st.subst c.lin) := by
              generalize substLin st.subst c.lin = l at hsm
              cases l with
              | nil => simp [LinComb.trySummand] at hsm
              | cons a l => have := trySummand_first hsm; simp [LinComb.vars_eq, this]
            have hvv : v ∈ LinComb.vars (LinComb.summand k v) := by simp [LinComb.vars_eq, LinComb.summand]
            have hvn := hu1 v (List.mem_append.2 (.inr hvv))
            refine ⟨⟨fun y hy => hs y (hqv y hy) (hu1 y (List.mem_append.2 (.inl hy))), ?_⟩,
              ih h2 hu2 (hone2' _) (himg1 himg) (hsApp ?_) (hone2 _) hw2⟩
            · rcases hwl with ⟨x, hx⟩ | hwl
              · by_cases hsx : SMap.get st.subst x = none
                · left
                  have hl2 : substLin st.subst c.lin = [(x, 1)] := by
                    rw [hx, substLin, if_neg]
                    simp [hsx]
                  rw [hl2] at hsm
                  have : k = 1 ∧ v = x := by
                    simp [LinComb.trySummand] at hsm
                    exact ⟨hsm.2.symm, hsm.1.symm⟩
                  exact ⟨v, by rw [this.1]; rfl⟩
                · right
                  intro y hy
                  simp only [LinComb.vars_eq, LinComb.summand, List.map_cons, List.map_nil, List.mem_singleton] at hy
                  subst hy
                  refine hs y ?_ hvn
                  rcases vars_substLin hmem with ⟨h1, h2⟩ | ⟨z, _, i, hi, hyi⟩
                  · rw [hx] at h1
                    simp only [LinComb.vars_eq, List.map_cons, List.map_nil, List.mem_singleton] at h1
                    subst h1
                    exact absurd h2 hsx
                  · exact himg _ _ hi _ hyi
              · right
                intro y hy
                simp only [LinComb.vars_eq, LinComb.summand, List.map_cons, List.map_nil, List.mem_singleton] at hy
                subst hy
                exact hs y (hl c.lin hwl y hmem) hvn
            · intro x hx hn
              rcases List.mem_append.1 hx with hx | hx
              · exact List.mem_append.2 (.inl (hs x (hwq x hx) hn))
              · rcases hwl with ⟨y, hy⟩ | hwl
                · rw [hy] at hx
                  simp only [LinComb.vars_eq, List.map_cons, List.map_nil, List.mem_singleton] at hx
                  subst hx
                  have hsx : SMap.get st.subst x = none := by
                    by_contra hc
                    have := hdom1 x (Option.isSome_iff_ne_none.2 hc)
                    rw [hn] at this; cases this
                  have hl2 : substLin st.subst c.lin = [(x, 1)] := by
                    rw [hy, substLin, if_neg]
                    simp [hsx]
                  rw [hl2] at hsm
                  have hvx : v = x := trySummand_first hsm
                  subst hvx
                  exact List.mem_append.2 (.inr (List.mem_append.2 (.inr hvv)))
                · exact List.mem_append.2 (.inl (hs x (hwl x hx) hn))
          | subst v k l l' hsm hi hv hlin hd =>
            refine WellScoped.mono ?_ (ih h2 hu2 (seen' := seen' ++ []) (hone2' _) ?_ (hsApp ?_) (hone2 _) hw2)
            · simp
            · intro x m hxm y hy
              refine List.mem_append.2 (.inl ?_)
              simp only [SMap.get_insert] at hxm
              split at hxm
              · simp only [Option.some.injEq] at hxm
                subst hxm
                apply hqv
                refine QuadComb.vars_tryLinear hlin ?_
                rw [← LinComb.vars_div hd]
                exact LinComb.vars_reduce hy
              · exact himg x m hxm y hy
            · intro x hx hn
              rw [List.append_nil]
              rcases List.mem_append.1 hx with hx | hx
              · exact hs x (hwq x hx) hn
              · rcases hwl with ⟨y, hy⟩ | hwl
                · rw [hy] at hx
                  simp only [LinComb.vars_eq, List.map_cons, List.map_nil, List.mem_singleton] at hx
                  subst hx
                  exfalso
                  have hsx : SMap.get st.subst x = none := by
                    by_contra hc
                    have := hdom1 x (by
                      simp only [SMap.get_insert]
                      split
                      · rfl
                      · exact Option.isSome_iff_ne_none.2 hc)
                    rw [hn] at this; cases this
                  have hl2 : substLin st.subst c.lin = [(x, 1)] := by
                    rw [hy, substLin, if_neg]
                    simp [hsx]
                  rw [hl2] at hsm
                  have hvx : v = x := trySummand_first hsm
                  subst hvx
                  have := hdom1 v (by simp)
                  rw [hn] at this; cases this
                · exact hs x (hwl x hx) hn

end Zok
