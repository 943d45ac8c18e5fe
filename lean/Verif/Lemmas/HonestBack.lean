import Verif.Lemmas.Passes

set_option linter.unusedSectionVars false

/- Honest executions: what a successful run says about directives, and pulling honesty back through the passes. -/

namespace Zok
variable {Z : Type _} {p : ℕ} [Fact p.Prime] (sem : SolverSem (ZMod p) Z)

theorem insertOutputs_values {F : Type _} [Field F] {os : List Variable} {rs : List F} {w w' : Witness F} (h : insertOutputs w os rs = some w')
    (hn : os.Nodup) (hl : rs.length = os.length) : os.map (assignmentOf w') = rs := by
  induction os generalizing w rs with
  | nil =>
    cases rs with
    | nil => rfl
    | cons _ _ => simp at hl
  | cons o os ih =>
    cases rs with
    | nil => simp at hl
    | cons r rs =>
      rw [insertOutputs] at h
      rw [List.nodup_cons] at hn
      rw [List.map_cons, ih h hn.2 (by simpa using hl)]
      congr 1
      unfold assignmentOf
      rw [insertOutputs_get h hn.1, SMap.get_insert_self]
      rfl

theorem evalQuads_val {F : Type _} [Field F] {w w' : Witness F} {qs : List (QuadComb F)} {vs : List F}
    (h : qs.mapM (evalQuad w) = some vs) (hk : ∀ x, (SMap.get w x).isSome → SMap.get w' x = SMap.get w x) :
    qs.map (QuadComb.val (assignmentOf w')) = vs := by
  rw [mapM_option_eq_some] at h
  induction h with
  | nil => rfl
  | cons h1 _ ih =>
    rw [List.map_cons, ih]
    congr 1
    obtain ⟨hb, hv⟩ := evalQuad_eq_some.1 h1
    rw [← hv]
    apply QuadComb.val_congr
    intro x hx
    have := hb x hx
    unfold assignmentOf
    rw [hk x this]

theorem execStmts_directives {solvers : List (Solver Z)} {w w' : Witness (ZMod p)} {ss : List (Stmt (ZMod p) Z)} {seen : List Variable}
    (h : execStmts sem false solvers w ss = .ok w') (hs : SMap.Sorted w)
    (hseen : ∀ x, (SMap.get w x).isSome ↔ x ∈ seen) (hf : DirectivesFresh seen ss)
    (hm : DirectivesMatch sem solvers ss) : ∀ s ∈ ss, HonestStmt sem solvers (assignmentOf w') s := by
  induction ss generalizing w seen with
  | nil => simp
  | cons s ss ih =>
    simp only [execStmts] at h
    split at h
    · simp at h
    · rename_i w1 h1
      obtain ⟨s1, k1, p1, -⟩ := execStmt_ok sem false solvers h1 hs
      have hseen1 : ∀ x, (SMap.get w1 x).isSome ↔ x ∈ seen ++ s.vars := by
        intro x; rw [k1, List.mem_append, hseen]
      obtain ⟨-, -, f2⟩ := execStmts_ok sem false solvers h s1 hseen1
      obtain ⟨keep, -⟩ := f2 hf.2
      intro t ht
      rcases List.mem_cons.1 ht with rfl | ht
      · cases t with
        | directive d =>
          obtain ⟨hn, hlen⟩ := hm d (by simp)
          have hfr := hf.1
          simp only at hfr
          simp only [execStmt] at h1
          split at h1
          · simp at h1
          · rename_i inputs hi
            split at h1
            · simp at h1
            · rename_i res hr
              split at h1
              · simp at h1
              · rename_i w2 hw2
                simp only [Except.ok.injEq] at h1
                subst h1
                have hr : executeSolver sem d.solver inputs solvers = .ok res := by
                  unfold runDirective at hr
                  split at hr
                  · simp_all
                  · exact hr
                have hin : d.inputs.map (QuadComb.val (assignmentOf w')) = inputs := by
                  refine evalQuads_val hi ?_
                  intro x hx
                  have hxo : x ∉ d.outputs := fun ho => hfr x ho ((hseen x).1 hx)
                  have e := insertOutputs_get hw2 hxo
                  rw [keep x (by rw [e]; exact hx), e]
                have hout : d.outputs.map (assignmentOf w') = res := by
                  rw [← insertOutputs_values hw2 hn (hlen _ _ hr)]
                  apply List.map_congr_left
                  intro o ho
                  unfold assignmentOf
                  rw [keep o ((insertOutputs_keys hw2 o).2 (.inl ho))]
                simp only [HonestStmt]
                rw [hin, hout]
                exact hr
        | _ => trivial
      · exact ih h s1 hseen1 hf.2 (fun d hd => hm d (by simp [hd])) t ht

theorem get_insertConsts_nodup {F : Type _} [Field F] [DecidableEq F] {σ : SMap (LinComb F)} {os : List Variable} {vs : List F} (hn : os.Nodup)
    (hl : vs.length = os.length) {ρ : Assignment F} (h1 : OneIsOne ρ) (hr : Respects (insertConsts σ os vs) ρ) :
    os.map ρ = vs := by
  induction os generalizing σ vs with
  | nil =>
    cases vs with
    | nil => rfl
    | cons _ _ => simp at hl
  | cons o os ih =>
    cases vs with
    | nil => simp at hl
    | cons v vs =>
      rw [List.nodup_cons] at hn
      have e : insertConsts σ (o :: os) (v :: vs) =
          insertConsts (SMap.insert σ o (LinComb.intoCanonical (LinComb.ofConst v))) os vs := rfl
      rw [e] at hr
      rw [List.map_cons, ih hn.2 (by simpa using hl) hr]
      congr 1
      rw [hr o (LinComb.intoCanonical (LinComb.ofConst v))]
      · exact val_constImage h1 v
      · rw [get_insertConsts_not_mem hn.1, SMap.get_insert_self]

/-- Pulling honesty back through the redefinition optimiser outside blocks. -/
theorem redefFlat_honest_back {st st' : RedefState (ZMod p)} {ss : List (Stmt (ZMod p) Z)} {out : List (Stmt (ZMod p) Z)}
    {ment seenF : List Variable} (hinv : RedefInv ment st) (hleaf : ∀ s ∈ ss, s.IsLeaf)
    (h : redefFlat sem st (ss.map (fun s => (false, s))) = some (st', out))
    (hf : ReplacesAtFirstUse sem ment st (ss.map (fun s => (false, s))))
    (hfr : DirectivesFresh seenF ss) (hm : ∀ x ∈ ment, x ∈ seenF)
    (hdom : ∀ x, (SMap.get st.subst x).isSome → x ∈ seenF)
    (hig : ∀ x ∈ st.ignore, x ∈ seenF ∧ SMap.get st.subst x = none)
    (hnd : ∀ d, .directive d ∈ ss → d.outputs.Nodup)
    {ρ ρ' : Assignment (ZMod p)} {solvers : List (Solver Z)} (h1 : OneIsOne ρ)
    (hr' : Respects st'.subst ρ) (hagree : ∀ x, SMap.get st'.subst x = none → ρ x = ρ' x)
    (hho : ∀ t ∈ out, HonestStmt sem solvers ρ' t) (hu : ∀ t ∈ out, ∀ y ∈ t.uses, SMap.get st'.subst y = none) :
    (∀ x ∈ st.ignore, SMap.get st'.subst x = none) ∧ ∀ s ∈ ss, HonestStmt sem solvers ρ s := by
  induction ss generalizing st out ment seenF with
  | nil =>
    simp only [redefFlat, List.map_nil, Option.some.injEq, Prod.mk.injEq] at h
    obtain ⟨rfl, rfl⟩ := h
    exact ⟨fun x hx => (hig x hx).2, by simp⟩
  | cons s ss ih =>
    rw [List.map_cons, redefFlat] at h
    split at h
    · cases h
    · rename_i st1 o1 he
      split at h
      · cases h
      · rename_i st2 o2 h2
        simp only [Option.some.injEq, Prod.mk.injEq] at h
        obtain ⟨rfl, rfl⟩ := h
        rw [List.map_cons] at hf
        obtain ⟨hf1, hf2⟩ := hf st1 o1 he
        have hl : s.IsLeaf := hleaf s (by simp)
        have hl2 : ∀ s ∈ ss, s.IsLeaf := fun s hs => hleaf s (by simp [hs])
        have hlm : ∀ s ∈ ss.map (fun s => (false, s)), s.2.IsLeaf := by
          intro t ht
          obtain ⟨u, hu, rfl⟩ := List.mem_map.1 ht
          exact hl2 u hu
        obtain ⟨hinv1, hext1⟩ := redefLeaf_inv sem hinv hl he hf1
        have hext2 := (redefFlat_inv sem hinv1 hlm h2 hf2).2.1
        have hr1 := respects_of_ext hext2 hr'
        have hr0 := respects_of_ext hext1 hr1
        obtain ⟨hfr1, hfr2⟩ := hfr
        have hm2 : ∀ x ∈ ment ++ s.uses, x ∈ seenF ++ s.vars := by
          intro x hx
          rcases List.mem_append.1 hx with hx | hx
          · exact List.mem_append.2 (.inl (hm x hx))
          · exact List.mem_append.2 (.inr (Stmt.mem_vars_of_uses hx))
        have hl' : ∀ l : LinComb (ZMod p), (∀ x ∈ LinComb.vars l, x ∈ s.uses) → ∀ y ∈ LinComb.vars (substLin st.subst l),
            y ∈ seenF ++ s.vars := by
          intro l hlv y hy
          rcases vars_substLin hy with ⟨h1, -⟩ | ⟨x, _, i, hi, hyi⟩
          · exact List.mem_append.2 (.inr (Stmt.mem_vars_of_uses (hlv y h1)))
          · exact List.mem_append.2 (.inl (hm y (hinv.img _ _ hi _ hyi).1))
        -- the state after the step
        have hstate : (∀ x, (SMap.get st1.subst x).isSome → x ∈ seenF ++ s.vars) ∧
            (∀ x ∈ st1.ignore, x ∈ seenF ++ s.vars ∧ SMap.get st1.subst x = none) ∧
            (∀ x ∈ st.ignore, x ∈ st1.ignore) := by
          have hd0 : ∀ x, (SMap.get st.subst x).isSome → x ∈ seenF ++ s.vars :=
            fun x hx => List.mem_append.2 (.inl (hdom x hx))
          have hi0 : ∀ x ∈ st.ignore, x ∈ seenF ++ s.vars ∧ SMap.get st.subst x = none :=
            fun x hx => ⟨List.mem_append.2 (.inl (hig x hx).1), (hig x hx).2⟩
          cases s with
          | block _ => exact hl.elim
          | log es =>
            simp only [redefLeaf, Option.some.injEq, Prod.mk.injEq] at he
            obtain ⟨rfl, -⟩ := he
            exact ⟨hd0, hi0, fun _ h => h⟩
          | constraint c =>
            have hv : ∀ v k, LinComb.trySummand (substLin st.subst c.lin) = some (v, k) →
                v ∈ seenF ++ (Stmt.constraint c : Stmt (ZMod p) Z).vars := by
              intro v k hs
              refine hl' c.lin (fun x hx => List.mem_append.2 (.inr hx)) v ?_
              generalize substLin st.subst c.lin = l at hs
              cases l with
              | nil => simp [LinComb.trySummand] at hs
              | cons a l => have := trySummand_first hs; simp [LinComb.vars_eq, this]
            cases redefConstraint_step (he : redefConstraint st c = some (st1, o1)) with
            | keep => exact ⟨hd0, hi0, fun _ h => h⟩
            | ignore v k hs hi hvn =>
              refine ⟨hd0, ?_, fun x h => List.mem_cons.2 (.inr h)⟩
              intro x hx
              rcases List.mem_cons.1 hx with rfl | hx
              · exact ⟨hv _ _ hs, hvn⟩
              · exact hi0 x hx
            | subst v k l l' hs hi hvn hlin hd =>
              refine ⟨?_, ?_, fun _ h => h⟩
              · intro x hx
                simp only [SMap.get_insert] at hx
                split at hx
                · rename_i e; rw [e]; exact hv _ _ hs
                · exact hd0 x hx
              · intro x hx
                refine ⟨(hi0 x hx).1, ?_⟩
                rw [SMap.get_insert_ne]
                · exact (hi0 x hx).2
                · rintro rfl; exact hi hx
          | directive d =>
            cases redefDirective_step sem (he : redefDirective sem false st d = some (st1, o1)) with
            | keep =>
              refine ⟨hd0, ?_, fun x h => List.mem_append.2 (.inr h)⟩
              intro x hx
              rcases List.mem_append.1 (hx : x ∈ d.outputs ++ st.ignore) with hx | hx
              · refine ⟨List.mem_append.2 (.inr (List.mem_append.2 (.inr hx))), ?_⟩
                by_contra hc
                exact hfr1 x hx (hdom x (Option.isSome_iff_ne_none.2 hc))
              · exact hi0 x hx
            | const ks outs hk hx' hlen =>
              refine ⟨?_, ?_, fun _ h => h⟩
              · intro x hx
                by_cases ho : x ∈ d.outputs
                · exact List.mem_append.2 (.inr (List.mem_append.2 (.inr ho)))
                · simp only [get_insertConsts_not_mem ho] at hx
                  exact hd0 x hx
              · intro x hx
                refine ⟨(hi0 x hx).1, ?_⟩
                have ho : x ∉ d.outputs := fun ho => hfr1 x ho (hig x hx).1
                simp only [get_insertConsts_not_mem ho]
                exact (hi0 x hx).2
        obtain ⟨hs1, hs2, hs3⟩ := hstate
        obtain ⟨hfin, hrest⟩ := ih hinv1 hl2 h2 hf2 hfr2 hm2 hs1 hs2 (fun d hd => hnd d (by simp [hd]))
          (fun t ht => hho t (List.mem_append.2 (.inr ht))) (fun t ht => hu t (List.mem_append.2 (.inr ht)))
        refine ⟨fun x hx => hfin x (hs3 x hx), ?_⟩
        intro t ht
        rcases List.mem_cons.1 ht with rfl | ht
        · cases t with
          | block _ => trivial
          | constraint _ => trivial
          | log _ => trivial
          | directive d =>
            have hn := hnd d (by simp)
            cases redefDirective_step sem (he : redefDirective sem false st d = some (st1, o1)) with
            | keep =>
              have hh := hho _ (List.mem_append.2 (.inl (List.mem_singleton.2 rfl)))
              have hu1 := hu _ (List.mem_append.2 (.inl (List.mem_singleton.2 rfl)))
              simp only [HonestStmt, List.map_map] at hh ⊢
              have ein : d.inputs.map (QuadComb.val ρ' ∘ fun q => rebuildInput (classifyInput (substQuad st.subst q)))
                  = d.inputs.map (QuadComb.val ρ) := by
                apply List.map_congr_left
                intro q hq
                simp only [Function.comp]
                have hr0' : Respects st.subst ρ := hr0
                rw [← val_substQuad hr0' q, ← val_rebuild h1 (substQuad st.subst q)]
                apply QuadComb.val_congr
                intro y hy
                refine (hagree y (hu1 y ?_)).symm
                exact List.mem_flatMap.2 ⟨_, List.mem_map.2 ⟨q, hq, rfl⟩, hy⟩
              have eout : d.outputs.map ρ' = d.outputs.map ρ := by
                apply List.map_congr_left
                intro o ho
                refine (hagree o (hfin o ?_)).symm
                exact List.mem_append.2 (.inl ho)
              rw [ein, eout] at hh
              exact hh
            | const ks outs hk hx hlen =>
              simp only [HonestStmt]
              have e : d.inputs.map (QuadComb.val ρ) = ks := by
                rw [← allConst_val h1 hk, List.map_map]
                exact List.map_congr_left (fun q _ => (val_substQuad hr0 q).symm)
              rw [e, executeSolver_nil sem solvers hx, Except.ok.injEq]
              exact (get_insertConsts_nodup hn hlen h1 hr1).symm
        · exact hrest t ht

variable [DecidableEq Z]

theorem get_extendSubst_nodup {τ : SMap Variable} {os ps : List Variable} (hn : os.Nodup) (hl : os.length = ps.length) :
    os.map (renVar (extendSubst τ os ps)) = ps := by
  induction os generalizing τ ps with
  | nil =>
    cases ps with
    | nil => rfl
    | cons _ _ => simp at hl
  | cons o os ih =>
    cases ps with
    | nil => simp at hl
    | cons v vs =>
      rw [List.nodup_cons] at hn
      have e : extendSubst τ (o :: os) (v :: vs) = extendSubst (SMap.insert τ o v) os vs := rfl
      rw [e, List.map_cons, ih hn.2 (by simpa using hl)]
      congr 1
      unfold renVar
      rw [get_extendSubst_not_mem hn.1, SMap.get_insert_self]
      rfl

/-- Pulling honesty back through the directive optimiser. -/
theorem dirFlat_honest_back {solvers : List (Solver Z)} {seen : List Variable} {st : DirState (ZMod p) Z} {ss : List (Stmt (ZMod p) Z)}
    (hl : ∀ s ∈ ss, s.IsLeaf) (hinv : DirInv seen st) (hf : DirectivesFresh seen ss)
    (hw : WellScoped seen ss) (hm : DirectivesMatch sem solvers ss)
    {ρ : Assignment (ZMod p)} (hcall : ∀ e ∈ st.calls, executeSolver sem e.1.1 (e.1.2.map (QuadComb.val ρ)) solvers = .ok (e.2.map ρ))
    (hh : ∀ t ∈ (dirFlat st ss).2, HonestStmt sem solvers ρ t) :
    ∀ s ∈ ss, HonestStmt sem solvers (fun x => ρ (renVar (dirFlat st ss).1.subst x)) s := by
  induction ss generalizing st seen with
  | nil => simp
  | cons s ss ih =>
    obtain ⟨hf1, hf2⟩ := hf
    have hls := hl s (by simp)
    have hl2 : ∀ s ∈ ss, s.IsLeaf := fun s h => hl s (by simp [h])
    obtain ⟨h1, h2, h3⟩ := dirLeaf_inv hls hinv (fun d e => by subst e; exact hf1)
    have hk := dirFlat_keep hl2 h1 hf2
    have hh2 : ∀ t ∈ (dirFlat (dirLeaf st s).1 ss).2, HonestStmt sem solvers ρ t :=
      fun t ht => hh t (List.mem_append.2 (.inr ht))
    have hm2 : DirectivesMatch sem solvers ss := fun d hd => hm d (by simp [hd])
    have hfin : ∀ x ∈ seen ++ s.vars, renVar (dirFlat (dirLeaf st s).1 ss).1.subst x = renVar (dirLeaf st s).1.subst x := by
      intro x hx
      unfold renVar
      rw [hk x hx]
    cases s with
    | block _ => exact hls.elim
    | constraint c =>
      intro t ht
      rcases List.mem_cons.1 ht with rfl | ht
      · trivial
      · exact ih hl2 h1 hf2 hw.2 hm2 hcall hh2 t ht
    | log l =>
      intro t ht
      rcases List.mem_cons.1 ht with rfl | ht
      · trivial
      · exact ih hl2 h1 hf2 hw.2 hm2 hcall hh2 t ht
    | directive d =>
      obtain ⟨hn, hlen⟩ := hm d (by simp)
      have hren : d.outputs.map (renVar st.subst) = d.outputs := by
        conv_rhs => rw [← List.map_id d.outputs]
        exact List.map_congr_left (fun o ho => hinv.fresh (hf1 o ho))
      have hin : ∀ {τ : SMap Variable}, (∀ x ∈ seen, renVar τ x = renVar st.subst x) →
          d.inputs.map (QuadComb.val (fun x => ρ (renVar τ x))) =
          (d.inputs.map (renQuad st.subst)).map (QuadComb.val ρ) := by
        intro τ hτ
        rw [List.map_map]
        apply List.map_congr_left
        intro q hq
        simp only [Function.comp, val_renQuad]
        apply QuadComb.val_congr
        intro x hx
        rw [hτ x (hw.1 x (List.mem_flatMap.2 ⟨q, hq, hx⟩))]
      have hτ : ∀ x ∈ seen, renVar (dirFlat (dirLeaf st (.directive d)).1 ss).1.subst x = renVar st.subst x := by
        intro x hx
        rw [hfin x (List.mem_append.2 (.inl hx))]
        unfold renVar
        rw [h2 x hx]
      have hin := hin hτ
      have hout : d.outputs.map (fun x => ρ (renVar (dirFlat (dirLeaf st (.directive d)).1 ss).1.subst x)) =
          (d.outputs.map (renVar (dirLeaf st (.directive d)).1.subst)).map ρ := by
        rw [List.map_map]
        apply List.map_congr_left
        intro x hx
        simp only [Function.comp]
        rw [hfin x (List.mem_append.2 (.inr (List.mem_append.2 (.inr hx))))]
      have key : executeSolver sem d.solver ((d.inputs.map (renQuad st.subst)).map (QuadComb.val ρ)) solvers =
            .ok ((d.outputs.map (renVar (dirLeaf st (.directive d)).1.subst)).map ρ) ∧
          (∀ e ∈ (dirLeaf st (.directive d)).1.calls,
            executeSolver sem e.1.1 (e.1.2.map (QuadComb.val ρ)) solvers = .ok (e.2.map ρ)) := by
        have hh1 : ∀ t ∈ (dirLeaf st (.directive d)).2, HonestStmt sem solvers ρ t :=
          fun t ht => hh t (List.mem_append.2 (.inl ht))
        simp only [dirLeaf, hren] at hh1 ⊢
        revert hh1
        split
        · intro hh1
          have := hh1 _ (List.mem_singleton.2 rfl)
          simp only [HonestStmt] at this
          simp only [hren]
          refine ⟨this, ?_⟩
          intro e he
          rcases List.mem_cons.1 he with rfl | he
          · exact this
          · exact hcall e he
        · rename_i prev hp
          intro _
          have hc := hcall _ (lookupCall_mem hp)
          simp only at hc
          have hl' := hlen _ _ hc
          rw [List.length_map] at hl'
          simp only [get_extendSubst_nodup hn hl'.symm]
          exact ⟨hc, hcall⟩
      intro t ht
      rcases List.mem_cons.1 ht with rfl | ht
      · show executeSolver sem d.solver (d.inputs.map (QuadComb.val _)) solvers = .ok (d.outputs.map _)
        rw [dirFlat]
        simp only [hin, hout]
        exact key.1
      · exact ih hl2 h1 hf2 hw.2 hm2 key.2 hh2 t ht

end Zok
