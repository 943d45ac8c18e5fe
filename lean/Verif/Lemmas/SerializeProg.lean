import Verif.Lemmas.Serialize
import Verif.Spec.Serialize

namespace Zok.Ser
variable {F Z : Type _}

/-! ### The detector of unconstrained variables -/

theorem mem_removeVars {l : LinComb F} {vs : List Variable} {v : Variable} :
    v ∈ removeVars l vs ↔ v ∈ vs ∧ ¬ ∃ k, (v, k) ∈ l := by
  unfold removeVars
  rw [List.mem_filter]
  simp only [Bool.not_eq_true', List.contains_eq_mem, decide_eq_false_iff_not, List.mem_map, Prod.exists,
    exists_and_right, exists_eq_right]

theorem mem_foldl_remove (ls : List (LinComb F)) (vs : List Variable) (v : Variable) :
    v ∈ ls.foldl (fun vs l => removeVars l vs) vs ↔ v ∈ vs ∧ ¬ ∃ l ∈ ls, ∃ k, (v, k) ∈ l := by
  induction ls generalizing vs with
  | nil => simp
  | cons l ls ih =>
    rw [List.foldl_cons, ih, mem_removeVars]
    simp only [List.mem_cons, exists_eq_or_imp, not_or]
    tauto

theorem mem_foldl_log (es : List (List (LinComb F))) (vs : List Variable) (v : Variable) :
    v ∈ es.foldl (fun vs e => e.foldl (fun vs l => removeVars l vs) vs) vs ↔
      v ∈ vs ∧ ¬ ∃ e ∈ es, ∃ l ∈ e, ∃ k, (v, k) ∈ l := by
  induction es generalizing vs with
  | nil => simp
  | cons l ls ih =>
    rw [List.foldl_cons, ih, mem_foldl_remove]
    simp only [List.mem_cons, exists_eq_or_imp, not_or]
    tauto

theorem detectL_append (a b : List (Stmt F Z)) (vs : List Variable) :
    detectL (a ++ b) vs = detectL b (detectL a vs) := by
  induction a generalizing vs with
  | nil => rfl
  | cons s a ih => simp only [List.cons_append, detectL, ih]

mutual
theorem detect_atoms (s : Stmt F Z) (vs : List Variable) : detect s vs = detectL (atoms s) vs := by
  cases s with
  | block ss => simp only [detect, atoms]; exact detectL_atoms ss vs
  | constraint c => rfl
  | directive d => rfl
  | log l => rfl
theorem detectL_atoms (ss : List (Stmt F Z)) (vs : List Variable) : detectL ss vs = detectL (atomsL ss) vs := by
  cases ss with
  | nil => rfl
  | cons s ss =>
    simp only [detectL, atomsL, detectL_append]
    rw [← detect_atoms s vs]
    exact detectL_atoms ss _
end

/-- A statement that is not a block. -/
def IsAtom : Stmt F Z → Prop
  | .block _ => False
  | _ => True

mutual
theorem atoms_isAtom (s : Stmt F Z) : ∀ t ∈ atoms s, IsAtom t := by
  cases s with
  | block ss => simp only [atoms]; exact atomsL_isAtom ss
  | constraint c => simp [atoms, IsAtom]
  | directive d => simp [atoms, IsAtom]
  | log l => simp [atoms, IsAtom]
theorem atomsL_isAtom (ss : List (Stmt F Z)) : ∀ t ∈ atomsL ss, IsAtom t := by
  cases ss with
  | nil => simp [atomsL]
  | cons s ss =>
    intro t ht
    simp only [atomsL, List.mem_append] at ht
    rcases ht with h | h
    · exact atoms_isAtom s t h
    · exact atomsL_isAtom ss t h
end

theorem mem_detectL (ss : List (Stmt F Z)) (hs : ∀ t ∈ ss, IsAtom t) (vs : List Variable) (v : Variable) :
    v ∈ detectL ss vs ↔ (v ∈ vs ∧ ∀ s ∈ ss, ¬ InConstraint v s ∧ ¬ InLog v s) ∨
      ∃ pre d post, ss = pre ++ Stmt.directive d :: post ∧ v ∈ d.outputs ∧
        ∀ s ∈ post, ¬ InConstraint v s ∧ ¬ InLog v s := by
  induction ss generalizing vs with
  | nil => simp [detectL]
  | cons s ss ih =>
    have hs' : ∀ t ∈ ss, IsAtom t := fun t ht => hs t (List.mem_cons_of_mem _ ht)
    have hsplit : (∃ pre d post, s :: ss = pre ++ Stmt.directive d :: post ∧ v ∈ d.outputs ∧
        ∀ s ∈ post, ¬ InConstraint v s ∧ ¬ InLog v s) ↔
        (∃ d, s = Stmt.directive d ∧ v ∈ d.outputs ∧ ∀ s ∈ ss, ¬ InConstraint v s ∧ ¬ InLog v s) ∨
        ∃ pre d post, ss = pre ++ Stmt.directive d :: post ∧ v ∈ d.outputs ∧
          ∀ s ∈ post, ¬ InConstraint v s ∧ ¬ InLog v s := by
      constructor
      · rintro ⟨pre, d, post, h, h1, h2⟩
        cases pre with
        | nil =>
          simp only [List.nil_append, List.cons.injEq] at h
          obtain ⟨rfl, rfl⟩ := h
          exact Or.inl ⟨d, rfl, h1, h2⟩
        | cons a pre =>
          simp only [List.cons_append, List.cons.injEq] at h
          obtain ⟨rfl, rfl⟩ := h
          exact Or.inr ⟨pre, d, post, rfl, h1, h2⟩
      · rintro (⟨d, rfl, h1, h2⟩ | ⟨pre, d, post, rfl, h1, h2⟩)
        · exact ⟨[], d, ss, rfl, h1, h2⟩
        · exact ⟨s :: pre, d, post, rfl, h1, h2⟩
    rw [detectL, ih hs', hsplit]
    have hs0 := hs s List.mem_cons_self
    cases s with
    | block ss => exact absurd hs0 (by simp [IsAtom])
    | constraint c =>
      simp only [detect, mem_removeVars, List.forall_mem_cons, InConstraint, InLog, reduceCtorEq, false_and, exists_false,
        false_or, not_or, not_false_eq_true, and_true, and_assoc]
    | directive d =>
      simp only [detect, List.mem_append, List.forall_mem_cons, InConstraint, InLog, Stmt.directive.injEq,
        exists_eq_left', not_false_eq_true, and_true, true_and]
      rw [or_and_right, or_assoc]
    | log l =>
      simp only [detect, mem_foldl_log, List.forall_mem_cons, InConstraint, InLog, reduceCtorEq, false_and, exists_false,
        false_or, not_false_eq_true, true_and, and_assoc]

theorem mem_unconstrained (p : Prog F Z) (v : Variable) : v ∈ unconstrained p ↔ Unused p v := by
  unfold unconstrained Unused
  rw [detectL_atoms, mem_detectL _ (atomsL_isAtom _)]
  have : v ∈ detectInit p ↔ PrivateArg p v := by
    unfold detectInit PrivateArg
    simp only [List.mem_map, List.mem_filter]
    constructor
    · rintro ⟨a, ⟨h1, h2⟩, h3⟩; exact ⟨a, h1, h2, h3⟩
    · rintro ⟨a, h1, h2, h3⟩; exact ⟨a, ⟨h1, h2⟩, h3⟩
  rw [this]

/-! ### The indexer -/

theorem indexDirective_fields (sem : SolverSem F Z) (hash : Z → ℕ) (d : Directive F Z) (ix : Indexer Z) :
    (indexDirective sem hash d ix).1.inputs = d.inputs ∧ (indexDirective sem hash d ix).1.outputs = d.outputs := by
  unfold indexDirective
  split
  · split <;> exact ⟨rfl, rfl⟩
  · exact ⟨rfl, rfl⟩

mutual
theorem detect_index (sem : SolverSem F Z) (hash : Z → ℕ) (s : Stmt F Z) (ix : Indexer Z) (vs : List Variable) :
    detect (indexStmt sem hash s ix).1 vs = detect s vs := by
  cases s with
  | block ss => simp only [indexStmt, detect]; exact detectL_index sem hash ss ix vs
  | constraint c => rfl
  | directive d => simp only [indexStmt, detect, (indexDirective_fields sem hash d ix).2]
  | log l => rfl
theorem detectL_index (sem : SolverSem F Z) (hash : Z → ℕ) (ss : List (Stmt F Z)) (ix : Indexer Z) (vs : List Variable) :
    detectL (indexStmts sem hash ss ix).1 vs = detectL ss vs := by
  cases ss with
  | nil => rfl
  | cons s ss =>
    simp only [indexStmts, detectL]
    rw [detect_index sem hash s ix vs]
    exact detectL_index sem hash ss _ _
end

theorem length_indexStmts (sem : SolverSem F Z) (hash : Z → ℕ) (ss : List (Stmt F Z)) (ix : Indexer Z) :
    (indexStmts sem hash ss ix).1.length = ss.length := by
  induction ss generalizing ix with
  | nil => rfl
  | cons s ss ih => simp only [indexStmts, List.length_cons, ih]

/-- Invariant of the indexer, for solvers in `S`: an index points to the entry with that hash. -/
structure IxOk (hash : Z → ℕ) (S : Set Z) (ix : Indexer Z) : Prop where
  lookup : ∀ h i, ix.index.lookup h = some i → ∃ f ∈ S, ix.solvers[i]? = some (.zir f) ∧ hash f = h

/-- The table only grows. -/
def Grows (ix ix' : Indexer Z) : Prop := ∃ t, ix'.solvers = ix.solvers ++ t

theorem Grows.rfl (ix : Indexer Z) : Grows ix ix := ⟨[], by simp⟩

theorem Grows.trans {a b c : Indexer Z} (h1 : Grows a b) (h2 : Grows b c) : Grows a c := by
  obtain ⟨t, ht⟩ := h1
  obtain ⟨u, hu⟩ := h2
  exact ⟨t ++ u, by rw [hu, ht, List.append_assoc]⟩

theorem Grows.get {a b : Indexer Z} (h : Grows a b) {i : ℕ} {s : Solver Z} (hs : a.solvers[i]? = some s) :
    b.solvers[i]? = some s := by
  obtain ⟨t, ht⟩ := h
  rw [ht, List.getElem?_append_left (by
    by_contra hc
    rw [List.getElem?_eq_none (by omega)] at hs
    cases hs)]
  exact hs

theorem indexDirective_ok (sem : SolverSem F Z) (hash : Z → ℕ) (S : Set Z) (inj : Set.InjOn hash S) (d : Directive F Z)
    (hd : ∀ f, d.solver = .zir f → f ∈ S) (ix : Indexer Z) (ok : IxOk hash S ix) :
    IxOk hash S (indexDirective sem hash d ix).2 ∧ Grows ix (indexDirective sem hash d ix).2 ∧
      ∀ ix', Grows (indexDirective sem hash d ix).2 ix' →
        SameSolver sem ix'.solvers d.solver (indexDirective sem hash d ix).1.solver := by
  unfold indexDirective
  split
  · rename_i f hf
    have hfS := hd f hf
    split
    · rename_i i hi
      refine ⟨ok, Grows.rfl _, ?_⟩
      intro ix' g
      obtain ⟨f', hf', h1, h2⟩ := ok.lookup _ _ hi
      obtain rfl := inj hf' hfS h2
      simp only [SameSolver, hf, Solver.signature]
      exact ⟨i, by trivial, g.get h1⟩
    · rename_i hi
      refine ⟨⟨?_⟩, ⟨[.zir f], by trivial⟩, ?_⟩
      · intro h i hl
        simp only [List.lookup_cons] at hl
        split at hl
        · rename_i heq
          simp only [Option.some.injEq] at hl
          subst hl
          exact ⟨f, hfS, by simp, (beq_iff_eq.1 heq).symm⟩
        · obtain ⟨g, hg, h1, h2⟩ := ok.lookup _ _ hl
          refine ⟨g, hg, ?_, h2⟩
          exact Grows.get (a := ix) (b := ⟨ix.solvers ++ [.zir f], ix.index⟩) ⟨_, by trivial⟩ h1
      · intro ix' g
        simp only [SameSolver, hf, Solver.signature]
        exact ⟨_, by trivial, g.get (by simp)⟩
  · rename_i hne
    refine ⟨ok, Grows.rfl _, ?_⟩
    intro ix' _
    unfold SameSolver
    split
    · rename_i f hf
      exact absurd hf (hne f)
    · trivial

mutual
theorem indexStmt_ok (sem : SolverSem F Z) (hash : Z → ℕ) (S : Set Z) (inj : Set.InjOn hash S) (s : Stmt F Z)
    (hS : ∀ i o f, Stmt.directive ⟨i, o, .zir f⟩ ∈ atoms s → f ∈ S) (ix : Indexer Z) (ok : IxOk hash S ix) :
    IxOk hash S (indexStmt sem hash s ix).2 ∧ Grows ix (indexStmt sem hash s ix).2 ∧
      ∀ ix', Grows (indexStmt sem hash s ix).2 ix' → SameStmt sem ix'.solvers s (indexStmt sem hash s ix).1 := by
  cases s with
  | block ss =>
    obtain ⟨h1, h2, h3⟩ := indexStmts_ok sem hash S inj ss (by simpa only [atoms] using hS) ix ok
    simp only [indexStmt]
    exact ⟨h1, h2, fun ix' g => .block (h3 ix' g)⟩
  | constraint c => exact ⟨ok, Grows.rfl _, fun _ _ => .constraint c⟩
  | directive d =>
    obtain ⟨i, o, sv⟩ := d
    obtain ⟨h1, h2, h3⟩ := indexDirective_ok sem hash S inj ⟨i, o, sv⟩ (fun f hf => by
      simp only at hf
      subst hf
      exact hS i o f (by simp [atoms])) ix ok
    simp only [indexStmt]
    refine ⟨h1, h2, fun ix' g => ?_⟩
    have hx := indexDirective_fields sem hash ⟨i, o, sv⟩ ix
    have := h3 ix' g
    generalize (indexDirective sem hash ⟨i, o, sv⟩ ix).1 = d' at hx this ⊢
    obtain ⟨i', o', s'⟩ := d'
    obtain ⟨rfl, rfl⟩ := hx
    exact .directive this
  | log l => exact ⟨ok, Grows.rfl _, fun _ _ => .log l⟩
theorem indexStmts_ok (sem : SolverSem F Z) (hash : Z → ℕ) (S : Set Z) (inj : Set.InjOn hash S) (ss : List (Stmt F Z))
    (hS : ∀ i o f, Stmt.directive ⟨i, o, .zir f⟩ ∈ atomsL ss → f ∈ S) (ix : Indexer Z) (ok : IxOk hash S ix) :
    IxOk hash S (indexStmts sem hash ss ix).2 ∧ Grows ix (indexStmts sem hash ss ix).2 ∧
      ∀ ix', Grows (indexStmts sem hash ss ix).2 ix' →
        List.Forall₂ (SameStmt sem ix'.solvers) ss (indexStmts sem hash ss ix).1 := by
  cases ss with
  | nil => exact ⟨ok, Grows.rfl _, fun _ _ => .nil⟩
  | cons s ss =>
    obtain ⟨h1, h2, h3⟩ := indexStmt_ok sem hash S inj s
      (fun i o f h => hS i o f (by simp only [atomsL, List.mem_append]; exact Or.inl h)) ix ok
    obtain ⟨g1, g2, g3⟩ := indexStmts_ok sem hash S inj ss
      (fun i o f h => hS i o f (by simp only [atomsL, List.mem_append]; exact Or.inr h)) _ h1
    simp only [indexStmts]
    exact ⟨g1, h2.trans g2, fun ix' g => .cons (h3 ix' (g2.trans g)) (g3 ix' g)⟩
end

/-! ### Reading a written file -/

/-- What is assumed of the external CBOR codec: decoding what was encoded gives it back and leaves the rest, no encoding of a
statement is empty, and an encoded table of solvers is not a statement. -/
structure Codec.Lawful {M : Type _} (cd : Codec F Z M) : Prop where
  args : ∀ a r, cd.decArgs (cd.encArgs a ++ r) = some (a, r)
  stmt : ∀ s r, cd.decStmt (cd.encStmt s ++ r) = some (s, r)
  solvers : ∀ s r, cd.decSolvers (cd.encSolvers s ++ r) = some (s, r)
  modules : ∀ m r, cd.decModules (cd.encModules m ++ r) = some (m, r)
  nonempty : ∀ s, cd.encStmt s ≠ []
  stop : ∀ s r, cd.decStmt (cd.encSolvers s ++ r) = none

variable {M : Type _}

theorem readStmts_write {cd : Codec F Z M} (law : cd.Lawful) (ss : List (Stmt F Z)) (r : Bytes)
    (stop : cd.decStmt r = none) (fuel : ℕ) (hf : ss.length < fuel) :
    readStmts cd fuel (ss.flatMap cd.encStmt ++ r) = ss := by
  induction ss generalizing fuel with
  | nil =>
    cases fuel with
    | zero => rfl
    | succ n => simp only [List.flatMap_nil, List.nil_append, readStmts, stop]
  | cons s ss ih =>
    cases fuel with
    | zero => simp at hf
    | succ n =>
      simp only [List.flatMap_cons, List.append_assoc, readStmts]
      rw [law.stmt]
      simp only
      rw [ih n (by simpa using hf)]

theorem length_le_flatMap {cd : Codec F Z M} (law : cd.Lawful) (ss : List (Stmt F Z)) :
    ss.length ≤ (ss.flatMap cd.encStmt).length := by
  induction ss with
  | nil => simp
  | cons s ss ih =>
    have := List.length_pos_of_ne_nil (law.nonempty s)
    simp only [List.length_cons, List.flatMap_cons, List.length_append]
    omega

theorem drop_overwrite (w new : Bytes) (n : ℕ) (h : new.length ≤ n) : (overwrite w new).drop n = w.drop n := by
  unfold overwrite
  rw [List.drop_append, List.drop_eq_nil_of_le h, List.nil_append, List.drop_drop]
  congr 1
  omega

theorem length_overwrite (w new : Bytes) (h : new.length ≤ w.length) : (overwrite w new).length = w.length := by
  unfold overwrite
  simp
  omega

theorem selectCurve_id {id : Curve → Bytes} (inj : Function.Injective id) (c : Curve) :
    selectCurve id (id c) = some c := by
  unfold selectCurve
  cases c <;> simp [inj.eq_iff]

theorem selectCurve_inv {id : Curve → Bytes} {m : Bytes} {c : Curve} (h : selectCurve id m = some c) : m = id c := by
  unfold selectCurve at h
  split at h
  · cases h; assumption
  split at h
  · cases h; assumption
  split at h
  · cases h; assumption
  split at h
  · cases h; assumption
  split at h
  · cases h; assumption
  split at h
  · cases h; assumption
  · cases h

end Zok.Ser
