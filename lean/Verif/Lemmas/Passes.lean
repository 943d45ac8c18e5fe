import Verif.Lemmas.RedefScope

set_option linter.unusedSectionVars false

/- The other optimiser passes on streams without blocks. -/

namespace Zok
variable {Z : Type _} {p : ℕ} [Fact p.Prime] (sem : SolverSem (ZMod p) Z)

/-! ### Canonicalizer -/

section
variable {F : Type _} [Field F] [DecidableEq F]

mutual
theorem clean_canonStmt (s : Stmt F Z) : (canonStmt s).clean = s.clean.map canonLeaf := by
  cases s with
  | block ss => rw [canonStmt, Stmt.clean, Stmt.clean]; exact cleanL_canonStmts ss
  | constraint c => rfl
  | directive d => rfl
  | log l => rfl
theorem cleanL_canonStmts (ss : List (Stmt F Z)) : Stmt.cleanL (canonStmts ss) = (Stmt.cleanL ss).map canonLeaf := by
  cases ss with
  | nil => rfl
  | cons s ss =>
    rw [canonStmts, Stmt.cleanL, Stmt.cleanL, List.map_append, clean_canonStmt s, cleanL_canonStmts ss]
end

theorem canonLeaf_leaf {s : Stmt F Z} (h : s.IsLeaf) : (canonLeaf s).IsLeaf := by
  cases s with
  | block _ => exact h.elim
  | _ => trivial

theorem canonLeaf_sat {s : Stmt F Z} (h : s.IsLeaf) {ρ : Assignment F} : (canonLeaf s).Sat ρ ↔ s.Sat ρ := by
  cases s with
  | block _ => exact h.elim
  | constraint c =>
    rw [canonLeaf, Stmt.sat_constraint, Stmt.sat_constraint]
    simp only [QuadComb.val_reduce, LinComb.val_reduce]
  | directive d => exact ⟨fun _ => .directive _, fun _ => .directive _⟩
  | log l => exact ⟨fun _ => .log _, fun _ => .log _⟩

theorem canonLeaf_vars {s : Stmt F Z} (h : s.IsLeaf) {x : Variable} (hx : x ∈ (canonLeaf s).vars) : x ∈ s.vars := by
  cases s with
  | block _ => exact h.elim
  | constraint c =>
    rcases List.mem_append.1 hx with hx | hx
    · exact List.mem_append.2 (.inl (QuadComb.vars_reduce hx))
    · exact List.mem_append.2 (.inr (LinComb.vars_reduce hx))
  | directive d =>
    rcases List.mem_append.1 hx with hx | hx
    · simp only [List.mem_flatMap, List.mem_map] at hx
      obtain ⟨_, ⟨q, hq, rfl⟩, hx⟩ := hx
      exact List.mem_append.2 (.inl (List.mem_flatMap.2 ⟨q, hq, QuadComb.vars_reduce hx⟩))
    · exact List.mem_append.2 (.inr hx)
  | log l =>
    simp only [canonLeaf, Stmt.vars, List.mem_flatMap, List.mem_map] at hx
    obtain ⟨_, ⟨e, he, rfl⟩, _, hm, hx⟩ := hx
    obtain ⟨m, hmm, rfl⟩ := List.mem_map.1 hm
    exact List.mem_flatMap.2 ⟨e, he, List.mem_flatMap.2 ⟨m, hmm, LinComb.vars_reduce hx⟩⟩

theorem canon_fresh {ss : List (Stmt F Z)} (hl : ∀ s ∈ ss, s.IsLeaf) {seen seen' : List Variable}
    (hs : ∀ x ∈ seen', x ∈ seen) (hf : DirectivesFresh seen ss) : DirectivesFresh seen' (ss.map canonLeaf) := by
  induction ss generalizing seen seen' with
  | nil => trivial
  | cons s ss ih =>
    obtain ⟨h1, h2⟩ := hf
    have hls := hl s (by simp)
    refine ⟨?_, ih (fun s h => hl s (by simp [h])) ?_ h2⟩
    · cases s with
      | directive d => exact fun o ho hc => h1 o ho (hs o hc)
      | block _ => exact hls.elim
      | _ => trivial
    · intro x hx
      rcases List.mem_append.1 hx with hx | hx
      · exact List.mem_append.2 (.inl (hs x hx))
      · exact List.mem_append.2 (.inr (canonLeaf_vars hls hx))

theorem reduce_single (x : Variable) : LinComb.reduce [(x, (1 : F))] = [(x, 1)] := by
  simp [LinComb.reduce, LinComb.intoCanonical, LinComb.canonStep, SMap.insert]

theorem canon_scoped {ss : List (Stmt F Z)} {seen seen' : List Variable}
    (hs : ∀ x ∈ seen, x ∈ seen') (hw : WellScoped seen ss) : WellScoped seen' (ss.map canonLeaf) := by
  induction ss generalizing seen seen' with
  | nil => trivial
  | cons s ss ih =>
    obtain ⟨h1, h2⟩ := hw
    have hb : ∀ {vs : List Variable}, (∀ x ∈ s.vars, x ∈ seen' ∨ x ∈ vs) → ∀ x ∈ seen ++ s.vars, x ∈ seen' ++ vs := by
      intro vs hv x hx
      rcases List.mem_append.1 hx with hx | hx
      · exact List.mem_append.2 (.inl (hs x hx))
      · exact List.mem_append.2 (hv x hx)
    cases s with
    | block _ => exact h1.elim
    | constraint c =>
      refine ⟨⟨fun x hx => hs x (h1.1 x (QuadComb.vars_reduce hx)), ?_⟩, ih (hb ?_) h2⟩
      · rcases h1.2 with ⟨x, hx⟩ | h
        · left; exact ⟨x, by rw [hx]; exact reduce_single x⟩
        · right; exact fun x hx => hs x (h x (LinComb.vars_reduce hx))
      · intro x hx
        rcases List.mem_append.1 hx with hx | hx
        · exact .inl (hs x (h1.1 x hx))
        · rcases h1.2 with ⟨y, hy⟩ | h
          · right
            refine List.mem_append.2 (.inr ?_)
            show x ∈ LinComb.vars (LinComb.reduce c.lin)
            rw [hy, reduce_single, ← hy]
            exact hx
          · exact .inl (hs x (h x hx))
    | directive d =>
      refine ⟨?_, ih (hb ?_) h2⟩
      · intro x hx
        simp only [List.mem_flatMap, List.mem_map] at hx
        obtain ⟨_, ⟨q, hq, rfl⟩, hx⟩ := hx
        exact hs x (h1 x (List.mem_flatMap.2 ⟨q, hq, QuadComb.vars_reduce hx⟩))
      · intro x hx
        rcases List.mem_append.1 hx with hx | hx
        · exact .inl (hs x (h1 x hx))
        · exact .inr (List.mem_append.2 (.inr hx))
    | log l =>
      refine ⟨?_, ih (hb ?_) h2⟩
      · intro x hx
        simp only [List.mem_flatMap, List.mem_map] at hx
        obtain ⟨_, ⟨e, he, rfl⟩, _, hm, hx⟩ := hx
        obtain ⟨m, hmm, rfl⟩ := List.mem_map.1 hm
        exact hs x (h1 x (List.mem_flatMap.2 ⟨e, he, List.mem_flatMap.2 ⟨m, hmm, LinComb.vars_reduce hx⟩⟩))
      · intro x hx
        exact .inl (hs x (h1 x hx))

/-! ### TautologyOptimizer -/

mutual
theorem clean_tautStmt (s : Stmt F Z) : Stmt.cleanL (tautStmt s) = s.clean.flatMap tautLeaf := by
  cases s with
  | block ss =>
    rw [tautStmt, Stmt.cleanL, Stmt.clean, Stmt.clean, Stmt.cleanL, List.append_nil]
    exact cleanL_tautStmts ss
  | constraint c =>
    simp only [tautStmt, Stmt.clean, List.flatMap_cons, List.flatMap_nil, List.append_nil]
    apply Stmt.cleanL_leaf
    unfold tautLeaf
    split
    · split
      · split <;> simp [Stmt.IsLeaf]
      · simp [Stmt.IsLeaf]
    · simp_all
  | directive d => rfl
  | log l => rfl
theorem cleanL_tautStmts (ss : List (Stmt F Z)) : Stmt.cleanL (tautStmts ss) = (Stmt.cleanL ss).flatMap tautLeaf := by
  cases ss with
  | nil => rfl
  | cons s ss =>
    rw [tautStmts, Stmt.cleanL_append, Stmt.cleanL, List.flatMap_append, clean_tautStmt s, cleanL_tautStmts ss]
end

inductive TautStep : Stmt F Z → List (Stmt F Z) → Prop
  | drop (c : Constraint F) (l) (h : c.quad.tryLinear = some l) (e : l = c.lin) : TautStep (.constraint c) []
  | lin (c : Constraint F) (l) (h : c.quad.tryLinear = some l) :
      TautStep (.constraint c) [.constraint ⟨QuadComb.ofLin l, c.lin, c.error⟩]
  | keep (s) : TautStep s [s]

theorem tautLeaf_step (s : Stmt F Z) : TautStep s (tautLeaf s) := by
  unfold tautLeaf
  split
  · split
    · split
      · exact .drop _ _ ‹_› ‹_›
      · exact .lin _ _ ‹_›
    · exact .keep _
  · exact .keep _

theorem tautLeaf_sat {s : Stmt F Z} {ρ : Assignment F} (h1 : OneIsOne ρ) : SatAll ρ (tautLeaf s) ↔ s.Sat ρ := by
  have hh := tautLeaf_step s
  generalize tautLeaf s = out at hh
  cases hh with
  | drop c l h e =>
    rw [Stmt.sat_constraint]
    refine ⟨fun _ => ?_, fun _ => satAll_nil⟩
    rw [← QuadComb.val_tryLinear h ρ h1, e]
  | lin c l h =>
    rw [satAll_cons, Stmt.sat_constraint, Stmt.sat_constraint]
    simp only [QuadComb.val_ofLin ρ l h1, QuadComb.val_tryLinear h ρ h1]
    exact ⟨fun h => h.1, fun h => ⟨h, satAll_nil⟩⟩
  | keep =>
    rw [satAll_cons]
    exact ⟨fun h => h.1, fun h => ⟨h, satAll_nil⟩⟩

theorem taut_sat {ss : List (Stmt F Z)} {ρ : Assignment F} (h1 : OneIsOne ρ) :
    SatAll ρ (ss.flatMap tautLeaf) ↔ SatAll ρ ss := by
  induction ss with
  | nil => exact Iff.rfl
  | cons s ss ih => rw [List.flatMap_cons, satAll_append, satAll_cons, ih, tautLeaf_sat h1]

theorem tautLeaf_leaf {s t : Stmt F Z} (h : s.IsLeaf) (ht : t ∈ tautLeaf s) : t.IsLeaf := by
  have hh := tautLeaf_step s
  revert ht
  generalize tautLeaf s = out at hh
  cases hh with
  | drop => simp
  | lin => intro ht; rw [List.mem_singleton] at ht; rw [ht]; trivial
  | keep => intro ht; rw [List.mem_singleton] at ht; rw [ht]; exact h

theorem taut_fresh {ss : List (Stmt F Z)} {seen seen' : List Variable} (h1 : Variable.one ∈ seen)
    (hs : ∀ x ∈ seen', x ∈ seen) (hf : DirectivesFresh seen ss) : DirectivesFresh seen' (ss.flatMap tautLeaf) := by
  induction ss generalizing seen seen' with
  | nil => trivial
  | cons s ss ih =>
    obtain ⟨hf1, hf2⟩ := hf
    have h1' : ∀ l, Variable.one ∈ seen ++ l := fun l => List.mem_append.2 (.inl h1)
    rw [List.flatMap_cons]
    have hh := tautLeaf_step s
    generalize tautLeaf s = out at hh
    cases hh with
    | drop => exact ih (h1' _) (fun x hx => List.mem_append.2 (.inl (hs x hx))) hf2
    | lin c l h =>
      refine ⟨trivial, ih (h1' _) ?_ hf2⟩
      intro x hx
      rcases List.mem_append.1 hx with hx | hx
      · exact List.mem_append.2 (.inl (hs x hx))
      · rcases List.mem_append.1 hx with hx | hx
        · rcases QuadComb.vars_ofLin hx with rfl | hx
          · exact h1' _
          · exact List.mem_append.2 (.inr (List.mem_append.2 (.inl (QuadComb.vars_tryLinear h hx))))
        · exact List.mem_append.2 (.inr (List.mem_append.2 (.inr hx)))
    | keep =>
      refine ⟨?_, ih (h1' _) ?_ hf2⟩
      · cases s with
        | directive d => exact fun o ho hc => hf1 o ho (hs o hc)
        | _ => trivial
      · intro x hx
        rcases List.mem_append.1 hx with hx | hx
        · exact List.mem_append.2 (.inl (hs x hx))
        · exact List.mem_append.2 (.inr hx)

theorem taut_scoped {ss : List (Stmt F Z)} {seen seen' : List Variable} (h1 : Variable.one ∈ seen)
    (hs : ∀ x ∈ seen, x ∈ seen') (hw : WellScoped seen ss) : WellScoped seen' (ss.flatMap tautLeaf) := by
  induction ss generalizing seen seen' with
  | nil => trivial
  | cons s ss ih =>
    obtain ⟨hw1, hw2⟩ := hw
    have h1' : ∀ l, Variable.one ∈ seen ++ l := fun l => List.mem_append.2 (.inl h1)
    rw [List.flatMap_cons]
    have hh := tautLeaf_step s
    generalize tautLeaf s = out at hh
    cases hh with
    | drop c l h e =>
      refine ih (h1' _) ?_ hw2
      intro x hx
      rcases List.mem_append.1 hx with hx | hx
      · exact hs x hx
      · rcases List.mem_append.1 hx with hx | hx
        · exact hs x (hw1.1 x hx)
        · exact hs x (hw1.1 x (QuadComb.vars_tryLinear h (by rw [e]; exact hx)))
    | lin c l h =>
      refine ⟨⟨?_, ?_⟩, ih (h1' _) ?_ hw2⟩
      · intro x hx
        rcases QuadComb.vars_ofLin hx with rfl | hx
        · exact hs _ h1
        · exact hs x (hw1.1 x (QuadComb.vars_tryLinear h hx))
      · exact hw1.2.imp id (fun h x hx => hs x (h x hx))
      · intro x hx
        rcases List.mem_append.1 hx with hx | hx
        · exact List.mem_append.2 (.inl (hs x hx))
        · rcases List.mem_append.1 hx with hx | hx
          · exact List.mem_append.2 (.inl (hs x (hw1.1 x hx)))
          · exact List.mem_append.2 (.inr (List.mem_append.2 (.inr hx)))
    | keep =>
      refine ⟨?_, ih (h1' _) ?_ hw2⟩
      · cases s with
        | block _ => exact hw1
        | constraint c => exact ⟨fun x hx => hs x (hw1.1 x hx), hw1.2.imp id (fun h' x hx => hs x (h' x hx))⟩
        | directive d => exact fun x hx => hs x (hw1 x hx)
        | log l => exact fun x hx => hs x (hw1 x hx)
      · intro x hx
        rcases List.mem_append.1 hx with hx | hx
        · exact List.mem_append.2 (.inl (hs x hx))
        · exact List.mem_append.2 (.inr hx)

/-! ### DuplicateOptimizer -/

/-- The duplicate optimiser on a stream of leaves. -/
def dupFlat (hash : Stmt F Z → ℕ) (seen : List ℕ) : List (Stmt F Z) → List ℕ × List (Stmt F Z)
  | [] => (seen, [])
  | s :: ss => ((dupFlat hash (hash s :: seen) ss).1,
      if hash s ∈ seen then (dupFlat hash (hash s :: seen) ss).2 else s :: (dupFlat hash (hash s :: seen) ss).2)

theorem dupFlat_append (hash : Stmt F Z → ℕ) (seen : List ℕ) (a b : List (Stmt F Z)) :
    dupFlat hash seen (a ++ b) = ((dupFlat hash (dupFlat hash seen a).1 b).1,
      (dupFlat hash seen a).2 ++ (dupFlat hash (dupFlat hash seen a).1 b).2) := by
  induction a generalizing seen with
  | nil => rfl
  | cons s a ih =>
    simp only [List.cons_append, dupFlat, ih]
    split <;> rfl

mutual
theorem dupStmt_flat (hash : Stmt F Z → ℕ) (s : Stmt F Z) (seen : List ℕ) :
    dupStmt hash seen s = dupFlat hash seen s.clean := by
  cases s with
  | block ss => rw [dupStmt, Stmt.clean]; exact dupStmts_flat hash ss seen
  | constraint c => simp only [dupStmt, dupLeaf, Stmt.clean, dupFlat]
  | directive d => simp only [dupStmt, dupLeaf, Stmt.clean, dupFlat]
  | log l => simp only [dupStmt, dupLeaf, Stmt.clean, dupFlat]
theorem dupStmts_flat (hash : Stmt F Z → ℕ) (ss : List (Stmt F Z)) (seen : List ℕ) :
    dupStmts hash seen ss = dupFlat hash seen (Stmt.cleanL ss) := by
  cases ss with
  | nil => rfl
  | cons s ss => rw [dupStmts, Stmt.cleanL, dupFlat_append, dupStmt_flat hash s seen, dupStmts_flat hash ss]
end

theorem dupFlat_mem {hash : Stmt F Z → ℕ} {seen : List ℕ} {ss : List (Stmt F Z)} {t : Stmt F Z}
    (h : t ∈ (dupFlat hash seen ss).2) : t ∈ ss := by
  induction ss generalizing seen with
  | nil => cases h
  | cons s ss ih =>
    rw [dupFlat] at h
    split at h
    · exact List.mem_cons.2 (.inr (ih h))
    · exact (List.mem_cons.1 h).elim (fun h => List.mem_cons.2 (.inl h)) (fun h => List.mem_cons.2 (.inr (ih h)))

theorem dupFlat_cover {hash : Stmt F Z → ℕ} {seen : List ℕ} {ss : List (Stmt F Z)} {s : Stmt F Z} (h : s ∈ ss) :
    hash s ∈ seen ∨ ∃ t ∈ (dupFlat hash seen ss).2, hash t = hash s := by
  induction ss generalizing seen with
  | nil => cases h
  | cons a ss ih =>
    rw [dupFlat]
    by_cases ha : hash a ∈ seen
    · simp only [ha, if_true]
      rcases List.mem_cons.1 h with rfl | h
      · exact .inl ha
      · rcases ih (seen := hash a :: seen) h with h | h
        · rcases List.mem_cons.1 h with h | h
          · rw [h]; exact .inl ha
          · exact .inl h
        · exact .inr h
    · simp only [ha, if_false]
      rcases List.mem_cons.1 h with rfl | h
      · exact .inr ⟨s, by simp, rfl⟩
      · rcases ih (seen := hash a :: seen) h with h | ⟨t, ht, e⟩
        · rcases List.mem_cons.1 h with h | h
          · exact .inr ⟨a, by simp, h.symm⟩
          · exact .inl h
        · exact .inr ⟨t, by simp [ht], e⟩

theorem dup_fresh {hash : Stmt F Z → ℕ} {hs : List ℕ} {ss : List (Stmt F Z)} {seen seen' : List Variable}
    (hsub : ∀ x ∈ seen', x ∈ seen) (hf : DirectivesFresh seen ss) : DirectivesFresh seen' (dupFlat hash hs ss).2 := by
  induction ss generalizing seen seen' hs with
  | nil => trivial
  | cons s ss ih =>
    obtain ⟨hf1, hf2⟩ := hf
    rw [dupFlat]
    split
    · exact ih (fun x hx => List.mem_append.2 (.inl (hsub x hx))) hf2
    · refine ⟨?_, ih ?_ hf2⟩
      · cases s with
        | directive d => exact fun o ho hc => hf1 o ho (hsub o hc)
        | _ => trivial
      · intro x hx
        rcases List.mem_append.1 hx with hx | hx
        · exact List.mem_append.2 (.inl (hsub x hx))
        · exact List.mem_append.2 (.inr hx)

theorem dup_scoped {hash : Stmt F Z → ℕ} {hs : List ℕ} {ss : List (Stmt F Z)} {seen seen' : List Variable}
    (hsub : ∀ x ∈ seen, x ∈ seen') (hhs : ∀ s ∈ ss, hash s ∈ hs → ∀ x ∈ s.vars, x ∈ seen')
    (hinj : ∀ s ∈ ss, ∀ t ∈ ss, hash s = hash t → s.vars = t.vars)
    (hw : WellScoped seen ss) : WellScoped seen' (dupFlat hash hs ss).2 := by
  induction ss generalizing seen seen' hs with
  | nil => trivial
  | cons s ss ih =>
    obtain ⟨hw1, hw2⟩ := hw
    have hinj' : ∀ s ∈ ss, ∀ t ∈ ss, hash s = hash t → s.vars = t.vars :=
      fun s h t h' => hinj s (by simp [h]) t (by simp [h'])
    rw [dupFlat]
    split
    · rename_i hm
      have hv := hhs s (by simp) hm
      refine ih ?_ ?_ hinj' hw2
      · intro x hx
        rcases List.mem_append.1 hx with hx | hx
        · exact hsub x hx
        · exact hv x hx
      · intro t ht htm x hx
        rcases List.mem_cons.1 htm with h | h
        · exact hv x (by rw [← hinj t (by simp [ht]) s (by simp) h]; exact hx)
        · exact hhs t (by simp [ht]) h x hx
    · refine ⟨?_, ih ?_ ?_ hinj' hw2⟩
      · cases s with
        | block _ => exact hw1
        | constraint c => exact ⟨fun x hx => hsub x (hw1.1 x hx), hw1.2.imp id (fun h' x hx => hsub x (h' x hx))⟩
        | directive d => exact fun x hx => hsub x (hw1 x hx)
        | log l => exact fun x hx => hsub x (hw1 x hx)
      · intro x hx
        rcases List.mem_append.1 hx with hx | hx
        · exact List.mem_append.2 (.inl (hsub x hx))
        · exact List.mem_append.2 (.inr hx)
      · intro t ht htm x hx
        rcases List.mem_cons.1 htm with h | h
        · exact List.mem_append.2 (.inr (by rw [← hinj t (by simp [ht]) s (by simp) h]; exact hx))
        · exact List.mem_append.2 (.inl (hhs t (by simp [ht]) h x hx))

/-! ### DirectiveOptimizer -/

variable [DecidableEq Z]

/-- The directive optimiser on a stream of leaves. -/
def dirFlat (st : DirState F Z) : List (Stmt F Z) → DirState F Z × List (Stmt F Z)
  | [] => (st, [])
  | s :: ss => ((dirFlat (dirLeaf st s).1 ss).1, (dirLeaf st s).2 ++ (dirFlat (dirLeaf st s).1 ss).2)

theorem dirFlat_append (st : DirState F Z) (a b : List (Stmt F Z)) :
    dirFlat st (a ++ b) = ((dirFlat (dirFlat st a).1 b).1, (dirFlat st a).2 ++ (dirFlat (dirFlat st a).1 b).2) := by
  induction a generalizing st with
  | nil => rfl
  | cons s a ih => simp only [List.cons_append, dirFlat, ih, List.append_assoc]

theorem dirLeaf_leaf {st : DirState F Z} {s : Stmt F Z} (h : s.IsLeaf) : ∀ t ∈ (dirLeaf st s).2, t.IsLeaf := by
  cases s with
  | block _ => exact h.elim
  | constraint c => simp [dirLeaf, Stmt.IsLeaf]
  | log l => simp [dirLeaf, Stmt.IsLeaf]
  | directive d =>
    simp only [dirLeaf]
    split <;> simp [Stmt.IsLeaf]

mutual
theorem dirStmt_flat (s : Stmt F Z) (st : DirState F Z) :
    (dirStmt st s).1 = (dirFlat st s.clean).1 ∧ Stmt.cleanL (dirStmt st s).2 = (dirFlat st s.clean).2 := by
  cases s with
  | block ss =>
    rw [dirStmt, Stmt.clean]
    refine ⟨(dirStmts_flat ss st).1, ?_⟩
    rw [Stmt.cleanL, Stmt.clean, Stmt.cleanL, List.append_nil]
    exact (dirStmts_flat ss st).2
  | constraint c => exact ⟨rfl, rfl⟩
  | log l => exact ⟨rfl, rfl⟩
  | directive d =>
    refine ⟨rfl, ?_⟩
    have : Stmt.cleanL (dirLeaf st (.directive d)).2 = (dirLeaf st (.directive d)).2 :=
      Stmt.cleanL_leaf (dirLeaf_leaf trivial)
    simp only [Stmt.clean, dirFlat, List.append_nil]
    exact this
theorem dirStmts_flat (ss : List (Stmt F Z)) (st : DirState F Z) :
    (dirStmts st ss).1 = (dirFlat st (Stmt.cleanL ss)).1 ∧
    Stmt.cleanL (dirStmts st ss).2 = (dirFlat st (Stmt.cleanL ss)).2 := by
  cases ss with
  | nil => exact ⟨rfl, rfl⟩
  | cons s ss =>
    rw [dirStmts, Stmt.cleanL, dirFlat_append, Stmt.cleanL_append]
    obtain ⟨h1, h2⟩ := dirStmt_flat s st
    obtain ⟨h3, h4⟩ := dirStmts_flat ss (dirStmt st s).1
    rw [h1] at h3 h4
    exact ⟨by rw [h1]; exact h3, by rw [h2, h1, h4]⟩
end

theorem dirFlat_leaf {ss : List (Stmt F Z)} (hl : ∀ s ∈ ss, s.IsLeaf) {st : DirState F Z} :
    ∀ t ∈ (dirFlat st ss).2, t.IsLeaf := by
  induction ss generalizing st with
  | nil => simp [dirFlat]
  | cons s ss ih =>
    intro t ht
    rcases List.mem_append.1 ht with ht | ht
    · exact dirLeaf_leaf (hl s (by simp)) t ht
    · exact ih (fun s h => hl s (by simp [h])) t ht

theorem val_renLin (τ : SMap Variable) (ρ : Assignment F) (l : LinComb F) :
    LinComb.val ρ (renLin τ l) = LinComb.val (fun x => ρ (renVar τ x)) l := by
  induction l with
  | nil => rfl
  | cons t l ih =>
    simp only [renLin, List.map_cons, LinComb.val_cons] at ih ⊢
    rw [ih]

theorem val_renQuad (τ : SMap Variable) (ρ : Assignment F) (q : QuadComb F) :
    (renQuad τ q).val ρ = q.val (fun x => ρ (renVar τ x)) := by
  simp only [QuadComb.val, renQuad, val_renLin]

theorem vars_renLin {τ : SMap Variable} {l : LinComb F} {y : Variable} (h : y ∈ LinComb.vars (renLin τ l)) :
    ∃ x ∈ LinComb.vars l, y = renVar τ x := by
  simp only [renLin, LinComb.vars_eq, List.map_map, List.mem_map] at h
  obtain ⟨t, ht, rfl⟩ := h
  exact ⟨t.1, by simp only [LinComb.vars_eq]; exact List.mem_map.2 ⟨t, ht, rfl⟩, rfl⟩

theorem vars_renQuad {τ : SMap Variable} {q : QuadComb F} {y : Variable} (h : y ∈ (renQuad τ q).vars) :
    ∃ x ∈ q.vars, y = renVar τ x := by
  rcases QuadComb.mem_vars.1 h with h | h
  · obtain ⟨x, hx, e⟩ := vars_renLin h
    exact ⟨x, QuadComb.mem_vars.2 (.inl hx), e⟩
  · obtain ⟨x, hx, e⟩ := vars_renLin h
    exact ⟨x, QuadComb.mem_vars.2 (.inr hx), e⟩

theorem lookupCall_mem {calls : List ((Solver Z × List (QuadComb F)) × List Variable)} {k : Solver Z × List (QuadComb F)}
    {prev : List Variable} (h : lookupCall calls k = some prev) : (k, prev) ∈ calls := by
  unfold lookupCall at h
  rw [Option.map_eq_some_iff] at h
  obtain ⟨⟨k', v⟩, hf, hv⟩ := h
  have h1 := List.mem_of_find?_eq_some hf
  have h2 := List.find?_some hf
  simp only [decide_eq_true_eq] at h2
  simp only at hv
  subst h2 hv
  exact h1

theorem get_extendSubst_not_mem {τ : SMap Variable} {os ps : List Variable} {x : Variable} (h : x ∉ os) :
    SMap.get (extendSubst τ os ps) x = SMap.get τ x := by
  unfold extendSubst
  induction os generalizing τ ps with
  | nil => simp
  | cons o os ih =>
    cases ps with
    | nil => simp
    | cons v vs =>
      simp only [List.mem_cons, not_or] at h
      rw [List.zip_cons_cons, List.foldl_cons, ih h.2, SMap.get_insert_ne _ _ h.1]

theorem get_extendSubst {τ : SMap Variable} {os ps : List Variable} {x y : Variable}
    (h : SMap.get (extendSubst τ os ps) x = some y) : SMap.get τ x = some y ∨ (x, y) ∈ os.zip ps := by
  unfold extendSubst at h
  induction os generalizing τ ps with
  | nil => simp at h; exact .inl h
  | cons o os ih =>
    cases ps with
    | nil => simp at h; exact .inl h
    | cons v vs =>
      rw [List.zip_cons_cons, List.foldl_cons] at h
      rcases ih h with h | h
      · rw [SMap.get_insert] at h
        split at h
        · rename_i hx
          simp only [Option.some.injEq] at h
          exact .inr (by simp [hx, h])
        · exact .inl h
      · exact .inr (by simp [h])

theorem isSome_extendSubst {τ : SMap Variable} {os ps : List Variable} (hl : os.length = ps.length)
    {x : Variable} (h : x ∈ os) : ∃ y ∈ ps, SMap.get (extendSubst τ os ps) x = some y := by
  have hi : (SMap.get (extendSubst τ os ps) x).isSome := by
    have : ∀ (os ps : List Variable) (τ : SMap Variable), os.length = ps.length → (x ∈ os ∨ (SMap.get τ x).isSome) →
        (SMap.get (extendSubst τ os ps) x).isSome := by
      intro os
      unfold extendSubst
      induction os with
      | nil => intro ps τ _ h; simpa using h
      | cons o os ih =>
        intro ps τ hl h
        cases ps with
        | nil => simp at hl
        | cons v vs =>
          rw [List.zip_cons_cons, List.foldl_cons]
          apply ih vs _ (by simpa using hl)
          rw [SMap.get_insert]
          split
          · exact .inr rfl
          · rename_i hx
            rcases h with h | h
            · rcases List.mem_cons.1 h with h | h
              · exact absurd h hx
              · exact .inl h
            · exact .inr h
    exact this os ps τ hl (.inl h)
  by_cases hm : ∃ y ∈ ps, SMap.get (extendSubst τ os ps) x = some y
  · exact hm
  · exfalso
    -- the last assignment to `x` decides; it is in the zip
    have : ∀ (os ps : List Variable) (τ : SMap Variable), os.length = ps.length → x ∈ os →
        ∃ y ∈ ps, SMap.get (extendSubst τ os ps) x = some y := by
      intro os
      induction os with
      | nil => intro ps τ _ h; cases h
      | cons o os ih =>
        intro ps τ hl h
        cases ps with
        | nil => simp at hl
        | cons v vs =>
          by_cases hx : x ∈ os
          · obtain ⟨y, hy, e⟩ := ih vs (SMap.insert τ o v) (by simpa using hl) hx
            exact ⟨y, by simp [hy], e⟩
          · have hxo : x = o := by
              rcases List.mem_cons.1 h with h | h
              · exact h
              · exact absurd h hx
            subst hxo
            refine ⟨v, by simp, ?_⟩
            have : extendSubst τ (x :: os) (v :: vs) = extendSubst (SMap.insert τ x v) os vs := rfl
            rw [this, get_extendSubst_not_mem hx, SMap.get_insert_self]
    exact hm (this os ps τ hl h)

/-- The keys of the renaming have been mentioned; images and remembered outputs too. -/
structure DirInv (seen : List Variable) (st : DirState F Z) : Prop where
  key : ∀ x y, SMap.get st.subst x = some y → x ∈ seen ∧ y ∈ seen
  call : ∀ e ∈ st.calls, ∀ y ∈ e.2, y ∈ seen

theorem renVar_of_none {τ : SMap Variable} {x : Variable} (h : SMap.get τ x = none) : renVar τ x = x := by simp [renVar, h]

theorem DirInv.ren {seen : List Variable} {st : DirState F Z} (h : DirInv seen st) {x : Variable} (hx : x ∈ seen) :
    renVar st.subst x ∈ seen := by
  unfold renVar
  cases he : SMap.get st.subst x with
  | none => exact hx
  | some y => exact (h.key x y he).2

theorem DirInv.fresh {seen : List Variable} {st : DirState F Z} (h : DirInv seen st) {x : Variable} (hx : x ∉ seen) :
    renVar st.subst x = x := by
  apply renVar_of_none
  by_contra hc
  obtain ⟨y, hy⟩ := Option.ne_none_iff_exists'.1 hc
  exact hx (h.key x y hy).1

theorem DirInv.mono {seen seen' : List Variable} {st : DirState F Z} (hs : ∀ x ∈ seen, x ∈ seen') (h : DirInv seen st) :
    DirInv seen' st :=
  ⟨fun x y hxy => ⟨hs x (h.key x y hxy).1, hs y (h.key x y hxy).2⟩, fun e he y hy => hs y (h.call e he y hy)⟩

/-- One step keeps the invariant and only renames fresh variables. -/
theorem dirLeaf_inv {seen : List Variable} {st : DirState F Z} {s : Stmt F Z} (hl : s.IsLeaf) (hinv : DirInv seen st)
    (hf : ∀ d, s = .directive d → ∀ o ∈ d.outputs, o ∉ seen) :
    DirInv (seen ++ s.vars) (dirLeaf st s).1 ∧
    (∀ x ∈ seen, SMap.get (dirLeaf st s).1.subst x = SMap.get st.subst x) ∧
    ((∀ d, s ≠ .directive d) → (dirLeaf st s).1 = st) := by
  have hm : DirInv (seen ++ s.vars) st := hinv.mono (fun x hx => List.mem_append.2 (.inl hx))
  cases s with
  | block _ => exact hl.elim
  | constraint c => exact ⟨hm, fun _ _ => rfl, fun _ => rfl⟩
  | log l => exact ⟨hm, fun _ _ => rfl, fun _ => rfl⟩
  | directive d =>
    have hren : d.outputs.map (renVar st.subst) = d.outputs := by
      conv_rhs => rw [← List.map_id d.outputs]
      exact List.map_congr_left (fun o ho => hinv.fresh (hf d rfl o ho))
    simp only [dirLeaf, hren]
    split
    · refine ⟨⟨hm.key, ?_⟩, fun _ _ => rfl, fun h => absurd rfl (h d)⟩
      intro e he y hy
      rcases List.mem_cons.1 he with rfl | he
      · exact List.mem_append.2 (.inr (List.mem_append.2 (.inr hy)))
      · exact hm.call e he y hy
    · rename_i prev hp
      refine ⟨⟨?_, hm.call⟩, ?_, fun h => absurd rfl (h d)⟩
      · intro x y hxy
        rcases get_extendSubst hxy with h | h
        · exact hm.key x y h
        · have h1 := (List.of_mem_zip h).1
          have h2 := (List.of_mem_zip h).2
          exact ⟨List.mem_append.2 (.inr (List.mem_append.2 (.inr h1))), hm.call _ (lookupCall_mem hp) y h2⟩
      · intro x hx
        exact get_extendSubst_not_mem (fun hc => hf d rfl x hc hx)

theorem dirFlat_keep {seen : List Variable} {st : DirState F Z} {ss : List (Stmt F Z)} (hl : ∀ s ∈ ss, s.IsLeaf)
    (hinv : DirInv seen st) (hf : DirectivesFresh seen ss) :
    ∀ x ∈ seen, SMap.get (dirFlat st ss).1.subst x = SMap.get st.subst x := by
  induction ss generalizing st seen with
  | nil => intro x _; rfl
  | cons s ss ih =>
    obtain ⟨hf1, hf2⟩ := hf
    obtain ⟨h1, h2, -⟩ := dirLeaf_inv (hl s (by simp)) hinv (fun d e => by subst e; exact hf1)
    intro x hx
    have := ih (fun s h => hl s (by simp [h])) h1 hf2 x (List.mem_append.2 (.inl hx))
    rw [← h2 x hx]
    exact this

/-- Soundness: renaming pulls satisfying assignments back. -/
theorem dirFlat_sat {seen : List Variable} {st : DirState F Z} {ss : List (Stmt F Z)} (hl : ∀ s ∈ ss, s.IsLeaf)
    (hinv : DirInv seen st) (hf : DirectivesFresh seen ss) {ρ : Assignment F} (hs : SatAll ρ (dirFlat st ss).2) :
    SatAll (fun x => ρ (renVar (dirFlat st ss).1.subst x)) ss := by
  induction ss generalizing st seen with
  | nil => exact satAll_nil
  | cons s ss ih =>
    obtain ⟨hf1, hf2⟩ := hf
    have hls := hl s (by simp)
    have hl2 : ∀ s ∈ ss, s.IsLeaf := fun s h => hl s (by simp [h])
    obtain ⟨h1, h2, h3⟩ := dirLeaf_inv hls hinv (fun d e => by subst e; exact hf1)
    rw [dirFlat] at hs
    simp only at hs
    rw [satAll_append] at hs
    rw [satAll_cons]
    refine ⟨?_, ih hl2 h1 hf2 hs.2⟩
    cases s with
    | block _ => exact hls.elim
    | log l => exact .log l
    | directive d => exact .directive d
    | constraint c =>
      have hk := dirFlat_keep hl2 h1 hf2
      have hc := hs.1 _ (List.mem_singleton.2 rfl)
      rw [Stmt.sat_constraint] at hc ⊢
      simp only [val_renQuad, val_renLin] at hc
      have e : ∀ x ∈ (Stmt.constraint c : Stmt F Z).vars,
          ρ (renVar (dirFlat st (.constraint c :: ss)).1.subst x) = ρ (renVar st.subst x) := by
        intro x hx
        congr 1
        unfold renVar
        congr 1
        exact hk x (List.mem_append.2 (.inr hx))
      rw [QuadComb.val_congr (fun x hx => e x (List.mem_append.2 (.inl hx))),
        LinComb.val_congr (fun x hx => e x (List.mem_append.2 (.inr hx)))]
      exact hc

theorem dir_fresh {seen seen' : List Variable} {st : DirState F Z} {ss : List (Stmt F Z)} (hl : ∀ s ∈ ss, s.IsLeaf)
    (hinv : DirInv seen st) (hsub : ∀ x ∈ seen', x ∈ seen) (hf : DirectivesFresh seen ss) :
    DirectivesFresh seen' (dirFlat st ss).2 := by
  induction ss generalizing st seen seen' with
  | nil => trivial
  | cons s ss ih =>
    obtain ⟨hf1, hf2⟩ := hf
    have hls := hl s (by simp)
    have hl2 : ∀ s ∈ ss, s.IsLeaf := fun s h => hl s (by simp [h])
    obtain ⟨h1, h2, h3⟩ := dirLeaf_inv hls hinv (fun d e => by subst e; exact hf1)
    rw [dirFlat]
    have hv : ∀ x ∈ s.vars, renVar st.subst x ∈ seen ++ s.vars := by
      intro x hx
      exact (hinv.mono (fun x hx => List.mem_append.2 (.inl hx))).ren (List.mem_append.2 (.inr hx))
    have hsub' : ∀ {vs : List Variable}, (∀ y ∈ vs, ∃ x ∈ s.vars, y = renVar st.subst x) →
        ∀ x ∈ seen' ++ vs, x ∈ seen ++ s.vars := by
      intro vs hvs x hx
      rcases List.mem_append.1 hx with hx | hx
      · exact List.mem_append.2 (.inl (hsub x hx))
      · obtain ⟨z, hz, rfl⟩ := hvs x hx
        exact hv z hz
    cases s with
    | block _ => exact hls.elim
    | constraint c =>
      refine ⟨trivial, ih hl2 h1 (hsub' ?_) hf2⟩
      intro y hy
      rcases List.mem_append.1 hy with hy | hy
      · obtain ⟨x, hx, e⟩ := vars_renQuad hy
        exact ⟨x, List.mem_append.2 (.inl hx), e⟩
      · obtain ⟨x, hx, e⟩ := vars_renLin hy
        exact ⟨x, List.mem_append.2 (.inr hx), e⟩
    | log l =>
      refine ⟨trivial, ih hl2 h1 (hsub' ?_) hf2⟩
      intro y hy
      simp only [Stmt.vars, List.mem_flatMap, List.mem_map] at hy
      obtain ⟨_, ⟨e, he, rfl⟩, _, hm, hy⟩ := hy
      obtain ⟨m, hmm, rfl⟩ := List.mem_map.1 hm
      obtain ⟨x, hx, e'⟩ := vars_renLin hy
      exact ⟨x, List.mem_flatMap.2 ⟨e, he, List.mem_flatMap.2 ⟨m, hmm, hx⟩⟩, e'⟩
    | directive d =>
      have hd : dirLeaf st (.directive d) = dirLeaf st (.directive d) := rfl
      simp only [dirLeaf] at h1 ⊢
      revert h1
      split
      · intro h1
        refine ⟨?_, ih hl2 h1 (hsub' ?_) hf2⟩
        · intro o ho hc
          obtain ⟨z, hz, rfl⟩ := List.mem_map.1 ho
          rw [hinv.fresh (hf1 z hz)] at hc
          exact hf1 z hz (hsub z hc)
        · intro y hy
          rcases List.mem_append.1 hy with hy | hy
          · simp only [List.mem_flatMap, List.mem_map] at hy
            obtain ⟨_, ⟨q, hq, rfl⟩, hy⟩ := hy
            obtain ⟨x, hx, e'⟩ := vars_renQuad hy
            exact ⟨x, List.mem_append.2 (.inl (List.mem_flatMap.2 ⟨q, hq, hx⟩)), e'⟩
          · obtain ⟨x, hx, rfl⟩ := List.mem_map.1 hy
            exact ⟨x, List.mem_append.2 (.inr hx), rfl⟩
      · intro h1
        exact ih hl2 h1 (fun x hx => List.mem_append.2 (.inl (hsub x hx))) hf2

end

variable [DecidableEq Z]

/-- Equal values along the renaming, honest remembered calls. -/
structure DirHonest (solvers : List (Solver Z)) (ρ : Assignment (ZMod p)) (st : DirState (ZMod p) Z) : Prop where
  ren : ∀ x y, SMap.get st.subst x = some y → ρ x = ρ y
  call : ∀ e ∈ st.calls, executeSolver sem e.1.1 (e.1.2.map (QuadComb.val ρ)) solvers = .ok (e.2.map ρ)

variable {sem} in
theorem DirHonest.val {solvers : List (Solver Z)} {ρ : Assignment (ZMod p)} {st : DirState (ZMod p) Z}
    (h : DirHonest sem solvers ρ st) (x : Variable) : ρ (renVar st.subst x) = ρ x := by
  unfold renVar
  cases he : SMap.get st.subst x with
  | none => rfl
  | some y => exact (h.ren x y he).symm

theorem zip_of_map_eq {α β : Type _} {f : α → β} {a b : List α} (h : a.map f = b.map f) {x y : α} (hx : (x, y) ∈ a.zip b) :
    f x = f y := by
  induction a generalizing b with
  | nil => cases hx
  | cons u a ih =>
    cases b with
    | nil => cases hx
    | cons v b =>
      simp only [List.map_cons, List.cons.injEq] at h
      simp only [List.zip_cons_cons, List.mem_cons, Prod.mk.injEq] at hx
      rcases hx with ⟨rfl, rfl⟩ | hx
      · exact h.1
      · exact ih h.2 hx

theorem dirLeaf_honest {solvers : List (Solver Z)} {ρ : Assignment (ZMod p)} {st : DirState (ZMod p) Z}
    {s : Stmt (ZMod p) Z} (hl : s.IsLeaf) (hi : DirHonest sem solvers ρ st) (hs : s.Sat ρ)
    (hh : HonestStmt sem solvers ρ s) :
    DirHonest sem solvers ρ (dirLeaf st s).1 ∧ SatAll ρ (dirLeaf st s).2 ∧
    (∀ t ∈ (dirLeaf st s).2, HonestStmt sem solvers ρ t) ∧
    (∀ d prev, s = .directive d → lookupCall st.calls (d.solver, d.inputs.map (renQuad st.subst)) = some prev →
      d.outputs.length = prev.length) := by
  have hρ : (fun x => ρ (renVar st.subst x)) = ρ := funext hi.val
  cases s with
  | block _ => exact hl.elim
  | log l =>
    refine ⟨hi, ?_, ?_, ?_⟩
    · simp only [dirLeaf]; rw [satAll_cons]; exact ⟨.log _, satAll_nil⟩
    · simp [dirLeaf, HonestStmt]
    · intro d prev h; cases h
  | constraint c =>
    refine ⟨hi, ?_, ?_, ?_⟩
    · simp only [dirLeaf]
      rw [satAll_cons]
      refine ⟨?_, satAll_nil⟩
      rw [Stmt.sat_constraint] at hs ⊢
      simp only [val_renQuad, val_renLin, hρ]
      exact hs
    · simp [dirLeaf, HonestStmt]
    · intro d prev h; cases h
  | directive d =>
    have hh : executeSolver sem d.solver (d.inputs.map (QuadComb.val ρ)) solvers = .ok (d.outputs.map ρ) := hh
    have hin : (d.inputs.map (renQuad st.subst)).map (QuadComb.val ρ) = d.inputs.map (QuadComb.val ρ) := by
      rw [List.map_map]
      exact List.map_congr_left (fun q _ => by simp only [Function.comp, val_renQuad, hρ])
    have hout : (d.outputs.map (renVar st.subst)).map ρ = d.outputs.map ρ := by
      rw [List.map_map]
      exact List.map_congr_left (fun x _ => hi.val x)
    have hprev : ∀ prev, lookupCall st.calls (d.solver, d.inputs.map (renQuad st.subst)) = some prev →
        (d.outputs.map (renVar st.subst)).map ρ = prev.map ρ := by
      intro prev hp
      have := hi.call _ (lookupCall_mem hp)
      simp only [hin] at this
      rw [this, Except.ok.injEq] at hh
      rw [hout, hh]
    refine ⟨?_, ?_, ?_, ?_⟩
    · simp only [dirLeaf]
      split
      · refine ⟨hi.ren, ?_⟩
        intro e he
        rcases List.mem_cons.1 he with rfl | he
        · simp only [hin, hout]; exact hh
        · exact hi.call e he
      · rename_i prev hp
        refine ⟨?_, hi.call⟩
        intro x y hxy
        rcases get_extendSubst hxy with h | h
        · exact hi.ren x y h
        · exact zip_of_map_eq (hprev prev hp) h
    · simp only [dirLeaf]
      split
      · rw [satAll_cons]; exact ⟨.directive _, satAll_nil⟩
      · exact satAll_nil
    · simp only [dirLeaf]
      split
      · intro t ht
        rw [List.mem_singleton] at ht
        subst ht
        simp only [HonestStmt, hin, hout]
        exact hh
      · simp
    · intro d' prev he hp
      cases he
      have := congrArg List.length (hprev prev hp)
      simpa using this

theorem dirFlat_honest {solvers : List (Solver Z)} {ρ : Assignment (ZMod p)} {st : DirState (ZMod p) Z}
    {ss : List (Stmt (ZMod p) Z)} (hl : ∀ s ∈ ss, s.IsLeaf) (hi : DirHonest sem solvers ρ st) (hs : SatAll ρ ss)
    (hh : ∀ s ∈ ss, HonestStmt sem solvers ρ s) :
    SatAll ρ (dirFlat st ss).2 ∧ (∀ t ∈ (dirFlat st ss).2, HonestStmt sem solvers ρ t) := by
  induction ss generalizing st with
  | nil => exact ⟨satAll_nil, by simp [dirFlat]⟩
  | cons s ss ih =>
    rw [satAll_cons] at hs
    obtain ⟨h1, h2, h3, -⟩ := dirLeaf_honest sem (hl s (by simp)) hi hs.1 (hh s (by simp))
    obtain ⟨h4, h5⟩ := ih (fun s h => hl s (by simp [h])) h1 hs.2 (fun s h => hh s (by simp [h]))
    refine ⟨?_, ?_⟩
    · rw [dirFlat]; simp only; rw [satAll_append]; exact ⟨h2, h4⟩
    · intro t ht
      rcases List.mem_append.1 ht with ht | ht
      · exact h3 t ht
      · exact h5 t ht

theorem dir_scoped {solvers : List (Solver Z)} {ρ : Assignment (ZMod p)} {st : DirState (ZMod p) Z}
    {ss : List (Stmt (ZMod p) Z)} {seen seen' : List Variable}
    (hi : DirHonest sem solvers ρ st) (hs : SatAll ρ ss)
    (hh : ∀ s ∈ ss, HonestStmt sem solvers ρ s)
    (hsub : ∀ x ∈ seen, renVar st.subst x ∈ seen') (hcall : ∀ e ∈ st.calls, ∀ y ∈ e.2, y ∈ seen')
    (hinv : DirInv seen st) (hf : DirectivesFresh seen ss)
    (hw : WellScoped seen ss) : WellScoped seen' (dirFlat st ss).2 := by
  induction ss generalizing st seen seen' with
  | nil => trivial
  | cons s ss ih =>
    obtain ⟨hw1, hw2⟩ := hw
    obtain ⟨hf1, hf2⟩ := hf
    rw [satAll_cons] at hs
    have hls : s.IsLeaf := by
      cases s with
      | block _ => exact hw1.elim
      | _ => trivial
    obtain ⟨hi1, -, -, hlen⟩ := dirLeaf_honest sem hls hi hs.1 (hh s (by simp))
    obtain ⟨hinv1, hk1, hid⟩ := dirLeaf_inv hls hinv (fun d e => by subst e; exact hf1)
    have hh2 : ∀ s ∈ ss, HonestStmt sem solvers ρ s := fun s h => hh s (by simp [h])
    rw [dirFlat]
    have hlin : ∀ l : LinComb (ZMod p), (∀ x ∈ LinComb.vars l, x ∈ seen) → ∀ y ∈ LinComb.vars (renLin st.subst l), y ∈ seen' := by
      intro l hl y hy
      obtain ⟨x, hx, rfl⟩ := vars_renLin hy
      exact hsub x (hl x hx)
    have hquad : ∀ q : QuadComb (ZMod p), (∀ x ∈ q.vars, x ∈ seen) → ∀ y ∈ (renQuad st.subst q).vars, y ∈ seen' := by
      intro l hl y hy
      obtain ⟨x, hx, rfl⟩ := vars_renQuad hy
      exact hsub x (hl x hx)
    have hcall' : ∀ vs, ∀ e ∈ st.calls, ∀ y ∈ e.2, y ∈ seen' ++ vs :=
      fun vs e he y hy => List.mem_append.2 (.inl (hcall e he y hy))
    cases s with
    | block _ => exact hls.elim
    | constraint c =>
      refine ⟨⟨hquad _ hw1.1, ?_⟩, ih hi1 hs.2 hh2 ?_ (hcall' _) hinv1 hf2 hw2⟩
      · rcases hw1.2 with ⟨x, hx⟩ | h
        · left; exact ⟨renVar st.subst x, by rw [hx]; rfl⟩
        · right; exact hlin _ h
      · intro x hx
        rcases List.mem_append.1 hx with hx | hx
        · exact List.mem_append.2 (.inl (hsub x hx))
        · rcases List.mem_append.1 hx with hx | hx
          · exact List.mem_append.2 (.inl (hsub x (hw1.1 x hx)))
          · refine List.mem_append.2 (.inr (List.mem_append.2 (.inr ?_)))
            simp only [renLin, LinComb.vars_eq, List.map_map, List.mem_map] at hx ⊢
            obtain ⟨t, ht, rfl⟩ := hx
            exact ⟨t, ht, rfl⟩
    | log l =>
      refine ⟨?_, ih hi1 hs.2 hh2 ?_ (hcall' _) hinv1 hf2 hw2⟩
      · intro y hy
        simp only [List.mem_flatMap, List.mem_map] at hy
        obtain ⟨_, ⟨e, he, rfl⟩, _, hm, hy⟩ := hy
        obtain ⟨m, hmm, rfl⟩ := List.mem_map.1 hm
        exact hlin m (fun x hx => hw1 x (List.mem_flatMap.2 ⟨e, he, List.mem_flatMap.2 ⟨m, hmm, hx⟩⟩)) y hy
      · intro x hx
        rcases List.mem_append.1 hx with hx | hx
        · exact List.mem_append.2 (.inl (hsub x hx))
        · exact List.mem_append.2 (.inl (hsub x (hw1 x hx)))
    | directive d =>
      have hren : d.outputs.map (renVar st.subst) = d.outputs := by
        conv_rhs => rw [← List.map_id d.outputs]
        exact List.map_congr_left (fun o ho => hinv.fresh (hf1 o ho))
      have hlen := fun prev => hlen d prev rfl
      simp only [dirLeaf, hren] at hi1 hinv1 hk1 ⊢
      revert hi1 hinv1 hk1
      split
      · intro hi1 hinv1 hk1
        refine ⟨?_, ih hi1 hs.2 hh2 ?_ ?_ hinv1 hf2 hw2⟩
        · intro y hy
          simp only [List.mem_flatMap, List.mem_map] at hy
          obtain ⟨_, ⟨q, hq, rfl⟩, hy⟩ := hy
          exact hquad q (fun x hx => hw1 x (List.mem_flatMap.2 ⟨q, hq, hx⟩)) y hy
        · intro x hx
          rcases List.mem_append.1 hx with hx | hx
          · exact List.mem_append.2 (.inl (hsub x hx))
          · rcases List.mem_append.1 hx with hx | hx
            · exact List.mem_append.2 (.inl (hsub x (hw1 x hx)))
            · simp only
              rw [hinv.fresh (hf1 x hx)]
              exact List.mem_append.2 (.inr (List.mem_append.2 (.inr hx)))
        · intro e he y hy
          rcases List.mem_cons.1 he with rfl | he
          · exact List.mem_append.2 (.inr (List.mem_append.2 (.inr hy)))
          · exact List.mem_append.2 (.inl (hcall e he y hy))
      · rename_i prev hp
        intro hi1 hinv1 hk1
        have hl := hlen prev hp
        refine ih hi1 hs.2 hh2 ?_ hcall hinv1 hf2 hw2
        have hold : ∀ x ∈ seen, renVar (extendSubst st.subst d.outputs prev) x ∈ seen' := by
          intro x hx
          have := hsub x hx
          unfold renVar at this ⊢
          rw [hk1 x hx]
          exact this
        intro x hx
        rcases List.mem_append.1 hx with hx | hx
        · exact hold x hx
        · rcases List.mem_append.1 hx with hx | hx
          · exact hold x (hw1 x hx)
          · obtain ⟨y, hy, e⟩ := isSome_extendSubst (τ := st.subst) hl hx
            simp only [renVar, e, Option.getD_some]
            exact hcall _ (lookupCall_mem hp) y hy

end Zok
