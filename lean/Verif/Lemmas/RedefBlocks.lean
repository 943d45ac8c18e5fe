import Verif.Lemmas.RedefRun

set_option linter.unusedSectionVars false

/- The redefinition optimiser on streams with blocks, related to its run on the flat stream. -/

namespace Zok
variable {Z : Type _}

/-- `Dropped σ a b`: `b` is `a` without some one-output directives whose output `σ` replaces. -/
inductive Dropped {F : Type _} (σ : SMap (LinComb F)) : List (Stmt F Z) → List (Stmt F Z) → Prop
  | nil : Dropped σ [] []
  | keep (s) {a b} : Dropped σ a b → Dropped σ (s :: a) (s :: b)
  | drop (d : Directive F Z) (o) {a b} : d.outputs = [o] → (SMap.get σ o).isSome → Dropped σ a b →
      Dropped σ (.directive d :: a) b

namespace Dropped
variable {F : Type _} {σ τ : SMap (LinComb F)} {a b c a' b' : List (Stmt F Z)}

theorem refl : ∀ a : List (Stmt F Z), Dropped σ a a
  | [] => .nil
  | s :: a => .keep s (refl a)

theorem mono (hm : ∀ x, (SMap.get σ x).isSome → (SMap.get τ x).isSome) (h : Dropped σ a b) : Dropped τ a b := by
  induction h with
  | nil => exact .nil
  | keep s _ ih => exact .keep s ih
  | drop d o h1 h2 _ ih => exact .drop d o h1 (hm o h2) ih

theorem trans (h1 : Dropped σ a b) (h2 : Dropped σ b c) : Dropped σ a c := by
  induction h1 generalizing c with
  | nil => exact h2
  | keep s _ ih =>
    cases h2 with
    | keep _ h => exact .keep s (ih h)
    | drop d o e1 e2 h => exact .drop d o e1 e2 (ih h)
  | drop d o e1 e2 _ ih => exact .drop d o e1 e2 (ih h2)

theorem append (h1 : Dropped σ a b) (h2 : Dropped σ a' b') : Dropped σ (a ++ a') (b ++ b') := by
  induction h1 with
  | nil => exact h2
  | keep s _ ih => exact .keep s ih
  | drop d o e1 e2 _ ih => exact .drop d o e1 e2 ih

theorem mem (h : Dropped σ a b) {s : Stmt F Z} (hs : s ∈ b) : s ∈ a := by
  induction h with
  | nil => exact hs
  | keep t _ ih =>
    rcases List.mem_cons.1 hs with h | h
    · exact List.mem_cons.2 (.inl h)
    · exact List.mem_cons.2 (.inr (ih h))
  | drop _ _ _ _ _ ih => exact List.mem_cons.2 (.inr (ih hs))

theorem satAll {F : Type _} [Field F] {σ : SMap (LinComb F)} {a b : List (Stmt F Z)} (h : Dropped σ a b) {ρ : Assignment F} : SatAll ρ a ↔ SatAll ρ b := by
  induction h with
  | nil => exact Iff.rfl
  | keep s _ ih => unfold SatAll at *; rw [List.forall_mem_cons, List.forall_mem_cons, ih]
  | drop d o _ _ _ ih =>
    unfold SatAll at *
    rw [List.forall_mem_cons, ih]
    exact ⟨fun h => h.2, fun h => ⟨.directive d, h⟩⟩

end Dropped

variable {p : ℕ} [Fact p.Prime] (sem : SolverSem (ZMod p) Z)

theorem redefFlat_append {st st1 st2 : RedefState (ZMod p)} {a b : List (Bool × Stmt (ZMod p) Z)}
    {o1 o2 : List (Stmt (ZMod p) Z)} (h1 : redefFlat sem st a = some (st1, o1))
    (h2 : redefFlat sem st1 b = some (st2, o2)) : redefFlat sem st (a ++ b) = some (st2, o1 ++ o2) := by
  induction a generalizing st o1 with
  | nil =>
    simp only [redefFlat, Option.some.injEq, Prod.mk.injEq] at h1
    obtain ⟨rfl, rfl⟩ := h1
    exact h2
  | cons bs a ih =>
    obtain ⟨b', s⟩ := bs
    rw [redefFlat] at h1
    split at h1
    · cases h1
    · rename_i st' o' he
      split at h1
      · cases h1
      · rename_i st'' o'' he2
        simp only [Option.some.injEq, Prod.mk.injEq] at h1
        obtain ⟨rfl, rfl⟩ := h1
        have := ih he2
        rw [List.cons_append, redefFlat, he]
        simp only [this, List.append_assoc]

theorem redefLeaf_dom {b : Bool} {st st' : RedefState (ZMod p)} {s : Stmt (ZMod p) Z} {out : List (Stmt (ZMod p) Z)}
    (h : redefLeaf sem b st s = some (st', out)) (x : Variable) (hx : (SMap.get st.subst x).isSome) :
    (SMap.get st'.subst x).isSome := by
  cases s with
  | block _ =>
    simp only [redefLeaf, Option.some.injEq, Prod.mk.injEq] at h
    rw [← h.1]; exact hx
  | log es =>
    simp only [redefLeaf, Option.some.injEq, Prod.mk.injEq] at h
    rw [← h.1]; exact hx
  | directive d =>
    cases redefDirective_step sem (h : redefDirective sem b st d = some (st', out)) with
    | keep => split <;> exact hx
    | const ks outs hk hx' hl => exact isSome_insertConsts hl (.inr hx)
  | constraint c =>
    cases redefConstraint_step (h : redefConstraint st c = some (st', out)) with
    | keep => exact hx
    | ignore => exact hx
    | subst v k l l' hs hi hv hl hd =>
      simp only [SMap.get_insert]
      split
      · rfl
      · exact hx

theorem redefFlat_dom {st st' : RedefState (ZMod p)} {ss : List (Bool × Stmt (ZMod p) Z)} {out : List (Stmt (ZMod p) Z)}
    (h : redefFlat sem st ss = some (st', out)) (x : Variable) (hx : (SMap.get st.subst x).isSome) :
    (SMap.get st'.subst x).isSome := by
  induction ss generalizing st out with
  | nil =>
    simp only [redefFlat, Option.some.injEq, Prod.mk.injEq] at h
    rw [← h.1]; exact hx
  | cons bs ss ih =>
    obtain ⟨b, s⟩ := bs
    rw [redefFlat] at h
    split at h
    · cases h
    · rename_i st1 o1 h1
      split at h
      · cases h
      · rename_i st2 o2 h2
        simp only [Option.some.injEq, Prod.mk.injEq] at h
        obtain ⟨rfl, rfl⟩ := h
        exact ih h2 (redefLeaf_dom sem h1 x hx)

theorem redefCleanup_dropped {F : Type _} {σ : SMap (LinComb F)} {a b : List (Stmt F Z)} (h : redefCleanup σ a = some b) :
    Dropped σ (Stmt.cleanL a) (Stmt.cleanL b) := by
  induction a generalizing b with
  | nil => simp only [redefCleanup, Option.some.injEq] at h; subst h; exact .nil
  | cons s a ih =>
    have hkeep : ∀ {b'}, (redefCleanup σ a).map (s :: ·) = some b' → Dropped σ (Stmt.cleanL (s :: a)) (Stmt.cleanL b') := by
      intro b' h
      rw [Option.map_eq_some_iff] at h
      obtain ⟨c, hc, rfl⟩ := h
      rw [Stmt.cleanL, Stmt.cleanL]
      exact (Dropped.refl _).append (ih hc)
    cases s with
    | directive d =>
      rw [redefCleanup] at h
      split at h
      · cases h
      · rename_i o ho
        split at h
        · rename_i hs
          exact .drop d o ho hs (ih h)
        · exact hkeep h
      · exact hkeep h
    | block _ => exact hkeep h
    | constraint _ => exact hkeep h
    | log _ => exact hkeep h

mutual
theorem redefStmt_flat (inner : Bool) (s : Stmt (ZMod p) Z) {st st' : RedefState (ZMod p)} {out : List (Stmt (ZMod p) Z)}
    (h : redefStmt sem inner st s = some (st', out)) :
    ∃ out', redefFlat sem st (Stmt.flag inner s) = some (st', out') ∧ Dropped st'.subst out' (Stmt.cleanL out) := by
  have hleaf : s.IsLeaf → redefLeaf sem inner st s = some (st', out) → Stmt.flag inner s = [(inner, s)] →
      (∀ t ∈ out, t.IsLeaf) →
      ∃ out', redefFlat sem st (Stmt.flag inner s) = some (st', out') ∧ Dropped st'.subst out' (Stmt.cleanL out) := by
    intro _ h hf hl
    refine ⟨out, ?_, ?_⟩
    · rw [hf]; simp [redefFlat, h]
    · rw [Stmt.cleanL_leaf hl]; exact Dropped.refl _
  cases s with
  | block ss =>
    rw [redefStmt] at h
    split at h
    · cases h
    · rename_i st1 o1 h1
      obtain ⟨out', hf, hd⟩ := redefStmts_flat (!inner) ss h1
      split at h
      · simp only [Option.some.injEq, Prod.mk.injEq] at h
        obtain ⟨rfl, rfl⟩ := h
        refine ⟨out', by rw [Stmt.flag]; exact hf, ?_⟩
        simpa [Stmt.cleanL, Stmt.clean] using hd
      · split at h
        · cases h
        · rename_i o2 h2
          simp only [Option.some.injEq, Prod.mk.injEq] at h
          obtain ⟨rfl, rfl⟩ := h
          refine ⟨out', by rw [Stmt.flag]; exact hf, ?_⟩
          have := hd.trans (redefCleanup_dropped h2)
          simpa [Stmt.cleanL, Stmt.clean] using this
  | constraint c =>
    have h : redefLeaf sem inner st (.constraint c) = some (st', out) := by rw [redefStmt] at h; exact h; intro ss hc; cases hc
    refine hleaf trivial h rfl ?_
    cases redefConstraint_step (h : redefConstraint st c = some (st', out)) <;> simp [Stmt.IsLeaf]
  | directive d =>
    have h : redefLeaf sem inner st (.directive d) = some (st', out) := by rw [redefStmt] at h; exact h; intro ss hc; cases hc
    refine hleaf trivial h rfl ?_
    cases redefDirective_step sem (h : redefDirective sem inner st d = some (st', out)) <;> simp [Stmt.IsLeaf]
  | log l =>
    have h : redefLeaf sem inner st (.log l) = some (st', out) := by rw [redefStmt] at h; exact h; intro ss hc; cases hc
    refine hleaf trivial h rfl ?_
    simp only [redefLeaf, Option.some.injEq, Prod.mk.injEq] at h
    rw [← h.2]; simp [Stmt.IsLeaf]
theorem redefStmts_flat (inner : Bool) (ss : List (Stmt (ZMod p) Z)) {st st' : RedefState (ZMod p)}
    {out : List (Stmt (ZMod p) Z)} (h : redefStmts sem inner st ss = some (st', out)) :
    ∃ out', redefFlat sem st (Stmt.flagL inner ss) = some (st', out') ∧ Dropped st'.subst out' (Stmt.cleanL out) := by
  cases ss with
  | nil =>
    simp only [redefStmts, Option.some.injEq, Prod.mk.injEq] at h
    obtain ⟨rfl, rfl⟩ := h
    exact ⟨[], rfl, .nil⟩
  | cons s ss =>
    rw [redefStmts] at h
    split at h
    · cases h
    · rename_i st1 o1 h1
      split at h
      · cases h
      · rename_i st2 o2 h2
        simp only [Option.some.injEq, Prod.mk.injEq] at h
        obtain ⟨rfl, rfl⟩ := h
        obtain ⟨o1', hf1, hd1⟩ := redefStmt_flat inner s h1
        obtain ⟨o2', hf2, hd2⟩ := redefStmts_flat inner ss h2
        refine ⟨o1' ++ o2', ?_, ?_⟩
        · rw [Stmt.flagL]; exact redefFlat_append sem hf1 hf2
        · rw [Stmt.cleanL_append]
          exact (hd1.mono (redefFlat_dom sem hf2)).append hd2
end

mutual
theorem Stmt.flag_clean (inner : Bool) (s : Stmt (ZMod p) Z) : (Stmt.flag inner s).map Prod.snd = s.clean := by
  cases s with
  | block ss => rw [Stmt.flag, Stmt.clean]; exact Stmt.flagL_clean _ ss
  | _ => rfl
theorem Stmt.flagL_clean (inner : Bool) (ss : List (Stmt (ZMod p) Z)) :
    (Stmt.flagL inner ss).map Prod.snd = Stmt.cleanL ss := by
  cases ss with
  | nil => rfl
  | cons s ss => rw [Stmt.flagL, Stmt.cleanL, List.map_append, Stmt.flag_clean inner s, Stmt.flagL_clean inner ss]
end

theorem Stmt.flagL_leaf (inner : Bool) (ss : List (Stmt (ZMod p) Z)) : ∀ s ∈ Stmt.flagL inner ss, s.2.IsLeaf := by
  intro s hs
  apply Stmt.isLeaf_of_clean (ss := ss)
  rw [← Stmt.flagL_clean inner]
  exact List.mem_map.2 ⟨s, hs, rfl⟩

theorem Stmt.flagL_sat (inner : Bool) (ss : List (Stmt (ZMod p) Z)) {ρ : Assignment (ZMod p)} :
    (∀ s ∈ Stmt.flagL inner ss, s.2.Sat ρ) ↔ SatAll ρ ss := by
  rw [← satAll_clean, ← Stmt.flagL_clean inner]
  unfold SatAll
  simp only [List.mem_map, forall_exists_index, and_imp, forall_apply_eq_imp_iff₂]

end Zok
