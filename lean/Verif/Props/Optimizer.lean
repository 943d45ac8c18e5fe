import Verif.Lemmas.HonestBack
import Verif.Props.Interp
import Verif.Spec.Optimizer

/-
C08-C13: the optimiser (`zokrates_core/src/optimizer`).
-/

namespace Zok
variable {p : ℕ} [Fact p.Prime] {Z : Type _} (sem : SolverSem (ZMod p) Z)

/-! ### Helpers -/

theorem redefInv_init {args : List Parameter} {n : ℕ} :
    RedefInv (p := p) (protectedVars args n) (redefInit args n) :=
  ⟨by simp [protectedVars], rfl, by intro x l h; simp [redefInit] at h⟩

theorem wellScoped_leaf {F : Type _} [Field F] [DecidableEq F] {seen : List Variable} {ss : List (Stmt F Z)} (h : WellScoped seen ss) :
    ∀ s ∈ ss, s.IsLeaf := by
  induction ss generalizing seen with
  | nil => simp
  | cons s ss ih =>
    obtain ⟨h1, h2⟩ := h
    intro t ht
    rcases List.mem_cons.1 ht with rfl | ht
    · cases t with
      | block _ => exact h1.elim
      | _ => trivial
    · exact ih h2 t ht

theorem flagL_leaf_eq {ss : List (Stmt (ZMod p) Z)} (h : ∀ s ∈ ss, s.IsLeaf) :
    Stmt.flagL false ss = ss.map (fun s => (false, s)) := by
  induction ss with
  | nil => rfl
  | cons s ss ih =>
    have hs : Stmt.flag false s = [(false, s)] := by
      have := h s (by simp)
      cases s with
      | block _ => exact this.elim
      | _ => rfl
    rw [Stmt.flagL, hs, ih (fun s hs => h s (by simp [hs]))]
    rfl

/-- Single assignment gives the discipline the redefinition optimiser needs. -/
theorem firstUse_of_singleAssignment {P : Prog (ZMod p) Z} (h : SingleAssignment P) :
    ReplacesAtFirstUse sem (protectedVars P.arguments P.returnCount) (redefInit P.arguments P.returnCount)
      (Stmt.flagL false P.statements) := by
  rw [flagL_leaf_eq (wellScoped_leaf h.wellScoped)]
  have hsub : ∀ x ∈ initialVars P.arguments, x ∈ protectedVars P.arguments P.returnCount := by
    intro x hx
    simp only [initialVars, protectedVars, List.mem_cons, List.mem_append] at hx ⊢
    tauto
  refine replacesAtFirstUse_of_scoped sem redefInv_init h.wellScoped h.fresh hsub (fun _ h => h) ?_ ?_ ?_
  · intro x hx; exact .inl (hsub x hx)
  · intro x hx; exact .inl hx
  · intro x hx; simp [redefInit] at hx

/-! ### C08 -/

/-- **C08/C42** (soundness). Whenever the pass only replaces variables at their first occurrence, every satisfying
assignment of its output extends to one of its input with the same arguments and outputs. -/
theorem redefinition_sound {P : Prog (ZMod p) Z} {st' : RedefState (ZMod p)} {out : List (Stmt (ZMod p) Z)}
    (h : redefStmts sem false (redefInit P.arguments P.returnCount) P.statements = some (st', out))
    (hd : ReplacesAtFirstUse sem (protectedVars P.arguments P.returnCount) (redefInit P.arguments P.returnCount)
      (Stmt.flagL false P.statements))
    {ρ' : Assignment (ZMod p)} (h1 : ρ' Variable.one = 1) (hs : SatAll ρ' out) :
    SatAll (extendBy st'.subst ρ') P.statements ∧
    (∀ x ∈ protectedVars P.arguments P.returnCount, extendBy st'.subst ρ' x = ρ' x) := by
  obtain ⟨out', hf, hdr⟩ := redefStmts_flat sem false P.statements h
  have hleaf := Stmt.flagL_leaf false P.statements
  obtain ⟨⟨ment', hinv', _⟩, _, hnone, hu⟩ := redefFlat_inv sem redefInv_init hleaf hf hd
  have hprot : ∀ x ∈ protectedVars P.arguments P.returnCount, extendBy st'.subst ρ' x = ρ' x :=
    fun x hx => extendBy_none (hnone x hx rfl)
  refine ⟨?_, hprot⟩
  have h1' : OneIsOne (extendBy st'.subst ρ') := by
    unfold OneIsOne
    rw [hprot _ (by simp [protectedVars]), h1]
  rw [← Stmt.flagL_sat false, redefFlat_sat sem redefInv_init hleaf hf hd h1' (extendBy_respects hinv' ρ')]
  have hs' : SatAll ρ' out' := hdr.satAll.2 (satAll_clean.2 hs)
  intro t ht
  obtain ⟨hl, hut⟩ := hu t ht
  exact sat_congr_uses hl (fun y hy => (extendBy_none (hut y hy)).symm) (hs' t ht)

/-- **C08** (soundness). For a program in single-assignment form, a satisfying assignment of the optimised statements
extends to one of the original statements: only variables that no constraint of the result mentions change. -/
theorem C08_sound {P : Prog (ZMod p) Z} (hP : SingleAssignment P) {st' : RedefState (ZMod p)}
    {out : List (Stmt (ZMod p) Z)}
    (h : redefStmts sem false (redefInit P.arguments P.returnCount) P.statements = some (st', out))
    {ρ' : Assignment (ZMod p)} (h1 : ρ' Variable.one = 1) (hs : SatAll ρ' out) :
    ∃ ρ : Assignment (ZMod p), SatAll ρ P.statements ∧
      (∀ x ∈ protectedVars P.arguments P.returnCount, ρ x = ρ' x) ∧
      (∀ t ∈ out, ∀ x ∈ t.uses, ρ x = ρ' x) := by
  have hd := firstUse_of_singleAssignment sem hP
  obtain ⟨h2, h3⟩ := redefinition_sound sem h hd h1 hs
  refine ⟨_, h2, h3, ?_⟩
  obtain ⟨out', hf, hdr⟩ := redefStmts_flat sem false P.statements h
  obtain ⟨_, _, _, hu⟩ := redefFlat_inv sem redefInv_init (Stmt.flagL_leaf false P.statements) hf hd
  intro t ht x hx
  by_cases hl : t.IsLeaf
  · have : t ∈ Stmt.cleanL out := by
      clear * - ht hl
      induction out with
      | nil => cases ht
      | cons s ss ih =>
        rw [Stmt.cleanL]
        rcases List.mem_cons.1 ht with rfl | ht
        · rw [Stmt.clean_leaf hl]; simp
        · exact List.mem_append.2 (.inr (ih ht))
    exact extendBy_none ((hu t (hdr.mem this)).2 x hx)
  · cases t with
    | block _ => cases hx
    | _ => exact absurd trivial hl

/-- **C08** (completeness). Every honest satisfying assignment of a program (single assignment or not, with or without
blocks) is an honest satisfying assignment of the optimised statements, unchanged. -/
theorem C08_complete {P : Prog (ZMod p) Z} {st' : RedefState (ZMod p)} {out : List (Stmt (ZMod p) Z)}
    (h : redefStmts sem false (redefInit P.arguments P.returnCount) P.statements = some (st', out))
    {ρ : Assignment (ZMod p)} {ins : List (ZMod p)}
    (hh : HonestAssignment sem P.solvers P.arguments ins (Stmt.cleanL P.statements) ρ) (hs : SatAll ρ P.statements) :
    HonestAssignment sem P.solvers P.arguments ins (Stmt.cleanL out) ρ ∧ SatAll ρ out := by
  obtain ⟨out', hf, hdr⟩ := redefStmts_flat sem false P.statements h
  have hleaf := Stmt.flagL_leaf false P.statements
  have hhs : ∀ s ∈ Stmt.flagL false P.statements, HonestStmt sem P.solvers ρ s.2 := by
    intro s hs
    have : s.2 ∈ Stmt.cleanL P.statements := by
      rw [← Stmt.flagL_clean false]; exact List.mem_map.2 ⟨s, hs, rfl⟩
    cases hb : s.2 with
    | directive d => rw [hb] at this; exact hh.directives d this
    | _ => trivial
  obtain ⟨_, h2, h3⟩ := redefFlat_honest sem hleaf hf (ρ := ρ) hh.one (by intro x l hx; simp [redefInit] at hx)
    ((Stmt.flagL_sat false P.statements).2 hs) hhs
  refine ⟨⟨hh.one, hh.args, ?_⟩, satAll_clean.1 (hdr.satAll.1 h2)⟩
  intro d hd
  exact h3 _ (hdr.mem hd)

/-! ### C09, C10 -/

/-- **C09**. Removing tautologies and linearising keeps exactly the satisfying assignments. -/
theorem C09_tautology_preserves (ss : List (Stmt (ZMod p) Z)) (ρ : Assignment (ZMod p)) (h1 : ρ Variable.one = 1) :
    SatAll ρ (tautStmts ss) ↔ SatAll ρ ss := by
  rw [← satAll_clean, cleanL_tautStmts, taut_sat h1, satAll_clean]

/-- **C09**. A dropped constraint holds under every assignment. -/
theorem C09_dropped_is_tautology (c : Constraint (ZMod p)) (h : tautStmt (Z := Z) (.constraint c) = [])
    (ρ : Assignment (ZMod p)) (h1 : ρ Variable.one = 1) : c.Sat ρ := by
  have := (C09_tautology_preserves (Z := Z) [.constraint c] ρ h1).1 (by
    rw [tautStmts, h]; exact satAll_nil)
  exact Stmt.sat_constraint.1 (this _ (by simp))

/-- **C10**. Canonicalising keeps exactly the satisfying assignments, -/
theorem C10_canonical_preserves (ss : List (Stmt (ZMod p) Z)) (ρ : Assignment (ZMod p)) :
    SatAll ρ (canonStmts ss) ↔ SatAll ρ ss := by
  rw [← satAll_clean, cleanL_canonStmts, ← satAll_clean (ss := ss)]
  unfold SatAll
  simp only [List.mem_map, forall_exists_index, and_imp, forall_apply_eq_imp_iff₂]
  exact forall₂_congr (fun s hs => canonLeaf_sat (Stmt.isLeaf_of_clean s hs))

/-- **C10**. … keeps the values every directive sends to its solver and the values every log prints, -/
theorem C10_canonical_values (ρ : Assignment (ZMod p)) :
    (∀ d : Directive (ZMod p) Z, ∃ d', canonStmt (.directive d) = .directive d' ∧ d'.solver = d.solver ∧
      d'.outputs = d.outputs ∧ d'.inputs.map (QuadComb.val ρ) = d.inputs.map (QuadComb.val ρ)) ∧
    (∀ l : List (List (LinComb (ZMod p))), ∃ l', canonStmt (Z := Z) (.log l) = .log l' ∧
      l'.map (List.map (LinComb.val ρ)) = l.map (List.map (LinComb.val ρ))) := by
  refine ⟨fun d => ⟨_, rfl, rfl, rfl, ?_⟩, fun l => ⟨_, rfl, ?_⟩⟩
  · rw [List.map_map]
    exact List.map_congr_left (fun q _ => QuadComb.val_reduce ρ q)
  · rw [List.map_map]
    apply List.map_congr_left
    intro e _
    simp only [Function.comp, List.map_map]
    exact List.map_congr_left (fun q _ => LinComb.val_reduce ρ q)

/-- **C10**. … and every combination it returns is sorted by variable with non-zero coefficients. -/
theorem C10_canonical_form (c : Constraint (ZMod p)) : ∃ c', canonStmt (Z := Z) (.constraint c) = .constraint c' ∧
    ∀ l ∈ [c'.quad.left, c'.quad.right, c'.lin], SMap.Sorted l ∧ ∀ t ∈ l, t.2 ≠ 0 := by
  refine ⟨_, rfl, ?_⟩
  intro l hl
  simp only [List.mem_cons, List.not_mem_nil, or_false, QuadComb.reduce] at hl
  rcases hl with rfl | rfl | rfl
  all_goals
    refine ⟨(LinComb.canon_spec _).1, fun t ht e => ?_⟩
    have := SMap.get_of_mem (LinComb.canon_spec _).1 (x := t.1) (v := t.2) ht
    rw [e] at this
    exact (LinComb.canon_spec _).2.1 _ _ this rfl

/-! ### C11 -/

section
variable [DecidableEq Z]

theorem dirInv_init (seen : List Variable) : DirInv (F := ZMod p) (Z := Z) seen ⟨[], []⟩ :=
  ⟨by intro x y h; simp at h, by simp⟩

/-- **C11** (soundness). If directives assign fresh variables, a satisfying assignment of the merged program gives one of
the original program with the same values for every variable mentioned before the first statement. -/
theorem C11_sound (seen : List Variable) (ss : List (Stmt (ZMod p) Z)) (hf : DirectivesFresh seen (Stmt.cleanL ss))
    {ρ' : Assignment (ZMod p)} (hs : SatAll ρ' (dirStmts ⟨[], []⟩ ss).2) :
    ∃ ρ : Assignment (ZMod p), SatAll ρ ss ∧ ∀ x ∈ seen, ρ x = ρ' x := by
  rw [← satAll_clean, (dirStmts_flat ss _).2] at hs
  have hl : ∀ s ∈ Stmt.cleanL ss, s.IsLeaf := Stmt.isLeaf_of_clean
  refine ⟨_, satAll_clean.1 (dirFlat_sat hl (dirInv_init seen) hf hs), ?_⟩
  intro x hx
  have := dirFlat_keep hl (dirInv_init seen) hf x hx
  simp only [renVar, this]
  rfl

/-- **C11** (completeness). An honest satisfying assignment of the original is one of the merged program. -/
theorem C11_complete (solvers : List (Solver Z)) (args : List Parameter) (ins : List (ZMod p))
    (ss : List (Stmt (ZMod p) Z)) {ρ : Assignment (ZMod p)}
    (hh : HonestAssignment sem solvers args ins (Stmt.cleanL ss) ρ) (hs : SatAll ρ ss) :
    HonestAssignment sem solvers args ins (Stmt.cleanL (dirStmts ⟨[], []⟩ ss).2) ρ ∧
    SatAll ρ (dirStmts ⟨[], []⟩ ss).2 := by
  have hl : ∀ s ∈ Stmt.cleanL ss, s.IsLeaf := Stmt.isLeaf_of_clean
  have hhs : ∀ s ∈ Stmt.cleanL ss, HonestStmt sem solvers ρ s := by
    intro s hs
    cases s with
    | directive d => exact hh.directives d hs
    | _ => trivial
  obtain ⟨h1, h2⟩ := dirFlat_honest sem hl (st := ⟨[], []⟩) ⟨by intro x y h; simp at h, by simp⟩ (satAll_clean.2 hs) hhs
  rw [← satAll_clean (ss := (dirStmts _ ss).2), (dirStmts_flat ss _).2]
  exact ⟨⟨hh.one, hh.args, fun d hd => h2 _ hd⟩, h1⟩

end

/-! ### C12 -/

theorem sat_dropError {s t : Stmt (ZMod p) Z} (h : s.dropError = t.dropError) {ρ : Assignment (ZMod p)} :
    s.Sat ρ ↔ t.Sat ρ := by
  have key : ∀ s : Stmt (ZMod p) Z, s.Sat ρ ↔ s.dropError.Sat ρ := by
    intro s
    cases s with
    | constraint c => simp only [Stmt.dropError, Stmt.sat_constraint]
    | _ => exact Iff.rfl
  rw [key s, key t, h]

theorem vars_dropError {s t : Stmt (ZMod p) Z} (h : s.dropError = t.dropError) : s.vars = t.vars := by
  have key : ∀ s : Stmt (ZMod p) Z, s.vars = s.dropError.vars := by
    intro s
    cases s with
    | constraint c => simp only [Stmt.dropError, Stmt.vars]
    | _ => rfl
  rw [key s, key t, h]

/-- **C12**. Whatever the hash function, every statement that is dropped has the hash of a statement that is kept, and
nothing is added. -/
theorem C12_dropped_has_kept_twin (hash : Stmt (ZMod p) Z → ℕ) (ss : List (Stmt (ZMod p) Z)) :
    (∀ t ∈ (dupStmts hash [] ss).2, t ∈ Stmt.cleanL ss) ∧
    (∀ s ∈ Stmt.cleanL ss, ∃ t ∈ (dupStmts hash [] ss).2, hash t = hash s) := by
  rw [dupStmts_flat]
  refine ⟨fun t ht => dupFlat_mem ht, fun s hs => ?_⟩
  rcases dupFlat_cover (seen := []) hs with h | h
  · cases h
  · exact h

/-- **C12**. If the hash does not collide on the statements of the program, the satisfying assignments are the same. -/
theorem C12_duplicates_preserve (hash : Stmt (ZMod p) Z → ℕ) (ss : List (Stmt (ZMod p) Z))
    (hh : HashSeparates hash (Stmt.cleanL ss)) (ρ : Assignment (ZMod p)) :
    SatAll ρ (dupStmts hash [] ss).2 ↔ SatAll ρ ss := by
  obtain ⟨h1, h2⟩ := C12_dropped_has_kept_twin hash ss
  rw [← satAll_clean (ss := ss)]
  constructor
  · intro h s hs
    obtain ⟨t, ht, e⟩ := h2 s hs
    exact (sat_dropError (hh t (h1 t ht) s hs e)).1 (h t ht)
  · intro h t ht
    exact h t (h1 t ht)

/-! ### C13 -/

section
variable [DecidableEq Z]

/-- The hash function separates the statements the duplicate optimiser sees. -/
def HashSeparatesRun (hash : Stmt (ZMod p) Z → ℕ) (P : Prog (ZMod p) Z) : Prop :=
  ∀ st' out, redefStmts sem false (redefInit P.arguments P.returnCount) P.statements = some (st', out) →
    HashSeparates hash (Stmt.cleanL (dirStmts ⟨[], []⟩ (canonStmts (tautStmts out))).2)

theorem optimize_some {hash : Stmt (ZMod p) Z → ℕ} {P P' : Prog (ZMod p) Z} (h : optimize sem hash P = some P') :
    ∃ st' out, redefStmts sem false (redefInit P.arguments P.returnCount) P.statements = some (st', out) ∧
      P' = { P with statements := (dupStmts hash [] (dirStmts ⟨[], []⟩ (canonStmts (tautStmts out))).2).2 } := by
  unfold optimize at h
  split at h
  · cases h
  · rename_i st' out he
    simp only [Option.some.injEq] at h
    exact ⟨st', out, he, h.symm⟩

theorem fresh_after_redef {P : Prog (ZMod p) Z} {st' : RedefState (ZMod p)} {out : List (Stmt (ZMod p) Z)}
    (h : redefStmts sem false (redefInit P.arguments P.returnCount) P.statements = some (st', out))
    (hd : ReplacesAtFirstUse sem (protectedVars P.arguments P.returnCount) (redefInit P.arguments P.returnCount)
      (Stmt.flagL false P.statements))
    (hf : DirectivesFresh (protectedVars P.arguments P.returnCount) (Stmt.cleanL P.statements)) :
    DirectivesFresh (protectedVars P.arguments P.returnCount) (Stmt.cleanL out) := by
  obtain ⟨out', hfl, hdr⟩ := redefStmts_flat sem false P.statements h
  have := redefFlat_fresh sem redefInv_init (Stmt.flagL_leaf false P.statements) hfl hd (fun _ h => h)
    (seen' := protectedVars P.arguments P.returnCount) (fun _ h => h) (by rw [Stmt.flagL_clean]; exact hf)
  exact DirectivesFresh.dropped hdr (fun _ h => h) this

theorem fresh_after_canon {args : List Parameter} {n : ℕ} {out : List (Stmt (ZMod p) Z)}
    (h : DirectivesFresh (protectedVars args n) (Stmt.cleanL out)) :
    DirectivesFresh (protectedVars args n) (Stmt.cleanL (canonStmts (tautStmts out))) := by
  rw [cleanL_canonStmts, cleanL_tautStmts]
  refine canon_fresh ?_ (fun _ h => h) (taut_fresh (by simp [protectedVars]) (fun _ h => h) h)
  intro s hs
  obtain ⟨t, ht, hst⟩ := List.mem_flatMap.1 hs
  exact tautLeaf_leaf (Stmt.isLeaf_of_clean t ht) hst

/-- **C13/C42** (soundness). Every input/output pair the optimised program can be satisfied with is one the original program
can be satisfied with, if directives assign fresh variables and the redefinition pass replaces variables at their first
occurrence only. -/
theorem optimize_sound {hash : Stmt (ZMod p) Z → ℕ} {P P' : Prog (ZMod p) Z} (h : optimize sem hash P = some P')
    (hd : ReplacesAtFirstUse sem (protectedVars P.arguments P.returnCount) (redefInit P.arguments P.returnCount)
      (Stmt.flagL false P.statements))
    (hf : DirectivesFresh (protectedVars P.arguments P.returnCount) (Stmt.cleanL P.statements))
    (hh : HashSeparatesRun sem hash P) (ins outs : List (ZMod p)) (hr : Realises P' ins outs) : Realises P ins outs := by
  obtain ⟨st', out, he, rfl⟩ := optimize_some sem h
  obtain ⟨ρ', h1, ha, ho, hs⟩ := hr
  have hf1 := fresh_after_redef sem he hd hf
  rw [C12_duplicates_preserve hash _ (hh _ _ he)] at hs
  obtain ⟨ρ1, hs1, hk1⟩ := C11_sound (protectedVars P.arguments P.returnCount) _ (fresh_after_canon hf1) hs
  have h11 : ρ1 Variable.one = 1 := by rw [hk1 _ (by simp [protectedVars])]; exact h1
  rw [C10_canonical_preserves, C09_tautology_preserves _ _ h11] at hs1
  obtain ⟨hs2, hk2⟩ := redefinition_sound sem he hd h11 hs1
  have hk : ∀ x ∈ protectedVars P.arguments P.returnCount, extendBy st'.subst ρ1 x = ρ' x :=
    fun x hx => by rw [hk2 x hx, hk1 x hx]
  refine ⟨_, ?_, ?_, ?_, hs2⟩
  · rw [hk _ (by simp [protectedVars])]; exact h1
  · rw [← ha]
    apply List.map_congr_left
    intro a hap
    refine hk _ ?_
    simp only [protectedVars, List.mem_cons, List.mem_append, List.mem_map]
    exact .inl (.inr ⟨a, hap, rfl⟩)
  · rw [← ho]
    apply List.map_congr_left
    intro r hrp
    refine hk _ ?_
    simp only [protectedVars, List.cons_append, List.mem_cons, List.mem_append]
    exact .inr (.inr hrp)

/-- **C42** restricted to programs (with or without blocks) in which the redefinition pass only replaces a variable that has
not occurred before the statement that triggers the replacement. Missing: blocks that constrain a variable after using it,
for which the property is false (`C42_block_loses_constraint`). -/
theorem C42_sound_partial {hash : Stmt (ZMod p) Z → ℕ} {P P' : Prog (ZMod p) Z} (h : optimize sem hash P = some P')
    (hd : ReplacesAtFirstUse sem (protectedVars P.arguments P.returnCount) (redefInit P.arguments P.returnCount)
      (Stmt.flagL false P.statements))
    (hf : DirectivesFresh (protectedVars P.arguments P.returnCount) (Stmt.cleanL P.statements))
    (hh : HashSeparatesRun sem hash P) (ins outs : List (ZMod p)) (hr : Realises P' ins outs) : Realises P ins outs :=
  optimize_sound sem h hd hf hh ins outs hr

/-- **C13** (soundness) for programs in single-assignment form. -/
theorem C13_sound {hash : Stmt (ZMod p) Z → ℕ} {P P' : Prog (ZMod p) Z} (hP : SingleAssignment P)
    (h : optimize sem hash P = some P') (hh : HashSeparatesRun sem hash P) (ins outs : List (ZMod p))
    (hr : Realises P' ins outs) : Realises P ins outs := by
  refine optimize_sound sem h (firstUse_of_singleAssignment sem hP) ?_ hh ins outs hr
  rw [Stmt.cleanL_leaf (wellScoped_leaf hP.wellScoped)]
  exact hP.fresh

theorem honest_canon {solvers : List (Solver Z)} {ρ : Assignment (ZMod p)} {out : List (Stmt (ZMod p) Z)} :
    (∀ t ∈ Stmt.cleanL (canonStmts (tautStmts out)), HonestStmt sem solvers ρ t) ↔
    ∀ t ∈ Stmt.cleanL out, HonestStmt sem solvers ρ t := by
  rw [cleanL_canonStmts, cleanL_tautStmts]
  have e : ∀ d : Directive (ZMod p) Z, HonestStmt sem solvers ρ (canonLeaf (.directive d)) ↔
      HonestStmt sem solvers ρ (.directive d) := by
    intro d
    simp only [canonLeaf, HonestStmt, List.map_map]
    have e2 : d.inputs.map (QuadComb.val ρ ∘ QuadComb.reduce) = d.inputs.map (QuadComb.val ρ) :=
      List.map_congr_left (fun q _ => QuadComb.val_reduce ρ q)
    rw [e2]
  constructor
  · intro h t ht
    cases t with
    | directive d =>
      rw [← e]
      exact h _ (List.mem_map.2 ⟨.directive d, List.mem_flatMap.2 ⟨.directive d, ht, by simp [tautLeaf]⟩, rfl⟩)
    | _ => trivial
  · intro h t ht
    obtain ⟨u, hu, rfl⟩ := List.mem_map.1 ht
    obtain ⟨v, hv, huv⟩ := List.mem_flatMap.1 hu
    have hh := tautLeaf_step v
    revert huv
    generalize tautLeaf v = o at hh
    cases hh with
    | drop => simp
    | lin c l hl =>
      intro huv
      rw [List.mem_singleton] at huv
      subst huv
      trivial
    | keep =>
      intro huv
      rw [List.mem_singleton] at huv
      subst huv
      cases u with
      | directive d => exact (e d).2 (h _ hv)
      | _ => trivial

theorem honest_iff {solvers : List (Solver Z)} {args : List Parameter} {ins : List (ZMod p)} {ρ : Assignment (ZMod p)}
    {ss : List (Stmt (ZMod p) Z)} : HonestAssignment sem solvers args ins ss ρ ↔
      ρ Variable.one = 1 ∧ args.map (fun a => ρ a.id) = ins ∧ ∀ t ∈ ss, HonestStmt sem solvers ρ t := by
  constructor
  · rintro ⟨h1, h2, h3⟩
    refine ⟨h1, h2, fun t ht => ?_⟩
    cases t with
    | directive d => exact h3 d ht
    | _ => trivial
  · rintro ⟨h1, h2, h3⟩
    exact ⟨h1, h2, fun d hd => h3 _ hd⟩

theorem dup_clean (hash : Stmt (ZMod p) Z → ℕ) (ss : List (Stmt (ZMod p) Z)) :
    Stmt.cleanL (dupStmts hash [] ss).2 = (dupStmts hash [] ss).2 := by
  apply Stmt.cleanL_leaf
  intro s hs
  exact Stmt.isLeaf_of_clean s ((C12_dropped_has_kept_twin hash ss).1 s hs)

/-- Honest satisfying assignments survive unchanged. -/
theorem optimize_honest {hash : Stmt (ZMod p) Z → ℕ} {P P' : Prog (ZMod p) Z} (h : optimize sem hash P = some P')
    {ins : List (ZMod p)} {ρ : Assignment (ZMod p)}
    (hρ : HonestAssignment sem P.solvers P.arguments ins (Stmt.cleanL P.statements) ρ) (hs : SatAll ρ P.statements) :
    HonestAssignment sem P'.solvers P'.arguments ins (Stmt.cleanL P'.statements) ρ ∧ SatAll ρ P'.statements := by
  obtain ⟨st', out, he, rfl⟩ := optimize_some sem h
  obtain ⟨hρ1, hs1⟩ := C08_complete sem he hρ hs
  have hs2 : SatAll ρ (canonStmts (tautStmts out)) := by
    rw [C10_canonical_preserves, C09_tautology_preserves _ _ hρ.one]; exact hs1
  have hρ2 : HonestAssignment sem P.solvers P.arguments ins (Stmt.cleanL (canonStmts (tautStmts out))) ρ := by
    rw [honest_iff, honest_canon]
    exact (honest_iff sem).1 hρ1
  obtain ⟨hρ3, hs3⟩ := C11_complete sem P.solvers P.arguments ins _ hρ2 hs2
  obtain ⟨hsub, -⟩ := C12_dropped_has_kept_twin hash (dirStmts ⟨[], []⟩ (canonStmts (tautStmts out))).2
  refine ⟨⟨hρ.one, hρ.args, ?_⟩, ?_⟩
  · intro d hd
    rw [dup_clean] at hd
    exact hρ3.directives d (hsub _ hd)
  · intro t ht
    exact satAll_clean.2 hs3 t (hsub t ht)

/-- **C13** (completeness). Every input/output pair an honest prover satisfies the original program with is one an honest
prover satisfies the optimised program with — for every program (single assignment or not, with or without blocks) and
every hash function. -/
theorem C13_complete {hash : Stmt (ZMod p) Z → ℕ} {P P' : Prog (ZMod p) Z} (h : optimize sem hash P = some P')
    (ins outs : List (ZMod p)) (hr : HonestlyRealises sem P ins outs) : HonestlyRealises sem P' ins outs := by
  obtain ⟨ρ, hρ, ho, hs⟩ := hr
  obtain ⟨h1, h2⟩ := optimize_honest sem h hρ hs
  refine ⟨ρ, h1, ?_, h2⟩
  obtain ⟨_, _, _, rfl⟩ := optimize_some sem h
  exact ho

/-! Scoping of the result. -/

theorem wellScoped_append {F : Type _} [Field F] [DecidableEq F] {seen : List Variable} {a b : List (Stmt F Z)} :
    WellScoped seen (a ++ b) ↔ WellScoped seen a ∧ WellScoped (seen ++ Stmt.varsL a) b := by
  induction a generalizing seen with
  | nil => simp [WellScoped, Stmt.varsL]
  | cons s a ih =>
    simp only [List.cons_append, WellScoped, ih, Stmt.varsL, List.append_assoc, and_assoc]

theorem directivesFresh_append_log {F : Type _} [Field F] {seen : List Variable} {a : List (Stmt F Z)} {l : List (List (LinComb F))} :
    DirectivesFresh seen (a ++ [.log l]) ↔ DirectivesFresh seen a := by
  induction a generalizing seen with
  | nil => simp [DirectivesFresh]
  | cons s a ih => simp only [List.cons_append, DirectivesFresh, ih]

/-- A statement that mentions the outputs. -/
def outputsLog (rs : List Variable) : Stmt (ZMod p) Z := .log [rs.map LinComb.ofVar]

theorem vars_outputsLog (rs : List Variable) : (outputsLog rs : Stmt (ZMod p) Z).vars = rs := by
  simp only [outputsLog, Stmt.vars, List.flatMap_cons, List.flatMap_nil, List.append_nil]
  induction rs with
  | nil => rfl
  | cons r rs ih => rw [List.map_cons, List.flatMap_cons, ih]; rfl

theorem outputsLog_subst {σ : SMap (LinComb (ZMod p))} {rs : List Variable} (h : ∀ r ∈ rs, SMap.get σ r = none) :
    (rs.map LinComb.ofVar).map (substLin σ) = rs.map LinComb.ofVar := by
  rw [List.map_map]
  apply List.map_congr_left
  intro r hr
  simp only [Function.comp, LinComb.ofVar, LinComb.summand]
  rw [substLin, if_neg]
  simp [h r hr]

theorem outputsLog_ren {τ : SMap Variable} {rs : List Variable} (h : ∀ r ∈ rs, SMap.get τ r = none) :
    (rs.map (LinComb.ofVar (F := ZMod p))).map (renLin τ) = rs.map LinComb.ofVar := by
  rw [List.map_map]
  apply List.map_congr_left
  intro r hr
  simp [LinComb.ofVar, LinComb.summand, renLin, renVar, h r hr]

theorem outputsLog_canon {rs : List Variable} :
    (rs.map (LinComb.ofVar (F := ZMod p))).map LinComb.reduce = rs.map LinComb.ofVar := by
  rw [List.map_map]
  apply List.map_congr_left
  intro r hr
  exact reduce_single r

theorem initial_sub_protected {args : List Parameter} {n : ℕ} : ∀ x ∈ initialVars args, x ∈ protectedVars args n := by
  intro x hx
  simp only [initialVars, protectedVars, List.mem_cons, List.mem_append] at hx ⊢
  tauto

/-- The result of the passes is in single-assignment form, given an honest satisfying assignment (used only to know that
merged directives have equally many outputs). -/
theorem optimize_scoped {hash : Stmt (ZMod p) Z → ℕ} {P P' : Prog (ZMod p) Z} (hP : SingleAssignment P)
    (h : optimize sem hash P = some P') (hh : HashSeparatesRun sem hash P)
    {ins : List (ZMod p)} {ρ : Assignment (ZMod p)}
    (hρ : HonestAssignment sem P.solvers P.arguments ins P.statements ρ) (hs : SatAll ρ P.statements) :
    SingleAssignment P' := by
  obtain ⟨st', out, he, rfl⟩ := optimize_some sem h
  have hleafP := wellScoped_leaf hP.wellScoped
  have hclean := Stmt.cleanL_leaf hleafP
  have hd := firstUse_of_singleAssignment sem hP
  obtain ⟨out', hfl, hdr⟩ := redefStmts_flat sem false P.statements he
  have hleaf := Stmt.flagL_leaf false P.statements
  obtain ⟨-, -, hnone, hu⟩ := redefFlat_inv sem redefInv_init hleaf hfl hd
  have hret : ∀ r ∈ P.returns, SMap.get st'.subst r = none := by
    intro r hr
    refine hnone r ?_ rfl
    simp only [protectedVars, List.cons_append, List.mem_cons, List.mem_append]
    exact .inr (.inr hr)
  -- redefinition
  have w0 : WellScoped (initialVars P.arguments) (P.statements ++ [outputsLog P.returns]) := by
    rw [wellScoped_append]
    refine ⟨hP.wellScoped, ?_, trivial⟩
    intro x hx
    have : x ∈ (outputsLog P.returns : Stmt (ZMod p) Z).vars := hx
    rw [vars_outputsLog] at this
    exact hP.outputs x this
  have hlog : redefFlat sem st' [(false, outputsLog P.returns)] = some (st', [outputsLog P.returns]) := by
    simp only [redefFlat, outputsLog, redefLeaf, List.map_cons, List.map_nil, outputsLog_subst hret, List.append_nil]
  have w1 : WellScoped (initialVars P.arguments) (out' ++ [outputsLog P.returns]) := by
    refine redefFlat_scoped sem (redefFlat_append sem hfl hlog) (σf := st'.subst) ?_ (fun _ h => h)
      (seen := initialVars P.arguments) (by simp [initialVars]) (by intro x l hx; simp [redefInit] at hx)
      (fun x hx _ => hx) (by simp [initialVars]) ?_
    · intro t ht y hy
      rcases List.mem_append.1 ht with ht | ht
      · exact (hu t ht).2 y hy
      · rw [List.mem_singleton] at ht
        subst ht
        have : y ∈ (outputsLog P.returns : Stmt (ZMod p) Z).vars := hy
        rw [vars_outputsLog] at this
        exact hret y this
    · rw [List.map_append, Stmt.flagL_clean, hclean]
      exact w0
  have w2 : WellScoped (initialVars P.arguments) (Stmt.cleanL out ++ [outputsLog P.returns]) := by
    refine WellScoped.dropped (hdr.append (Dropped.refl _)) (fun x hx _ => hx) ?_ w1
    intro t ht y hy
    rcases List.mem_append.1 ht with ht | ht
    · exact (hu t ht).2 y hy
    · rw [List.mem_singleton] at ht
      subst ht
      have : y ∈ (outputsLog P.returns : Stmt (ZMod p) Z).vars := hy
      rw [vars_outputsLog] at this
      exact hret y this
  have f2 : DirectivesFresh (protectedVars P.arguments P.returnCount) (Stmt.cleanL out) :=
    fresh_after_redef sem he hd (by rw [hclean]; exact hP.fresh)
  -- tautologies and canonical forms
  have w3 : WellScoped (initialVars P.arguments) (Stmt.cleanL (canonStmts (tautStmts out)) ++ [outputsLog P.returns]) := by
    have := canon_scoped (fun _ h => h) (taut_scoped (seen' := initialVars P.arguments) (by simp [initialVars]) (fun _ h => h) w2)
    rw [List.flatMap_append, List.map_append, ← cleanL_tautStmts, ← cleanL_canonStmts] at this
    have e : List.map canonLeaf (List.flatMap tautLeaf [(outputsLog P.returns : Stmt (ZMod p) Z)]) = [outputsLog P.returns] := by
      simp only [outputsLog, List.flatMap_cons, List.flatMap_nil, tautLeaf, List.append_nil, List.map_cons, List.map_nil,
        canonLeaf, outputsLog_canon]
    rw [e] at this
    exact this
  have f3 := fresh_after_canon f2
  -- directives
  obtain ⟨hρ1, hs1⟩ := C08_complete sem he (by rw [hclean]; exact hρ) hs
  have hs3 : SatAll ρ (Stmt.cleanL (canonStmts (tautStmts out))) := by
    rw [satAll_clean, C10_canonical_preserves, C09_tautology_preserves _ _ hρ.one]; exact hs1
  have hh3 := (honest_canon sem (out := out)).2 ((honest_iff sem).1 hρ1).2.2
  have hl3 : ∀ s ∈ Stmt.cleanL (canonStmts (tautStmts out)), s.IsLeaf := Stmt.isLeaf_of_clean
  have w4 : WellScoped (initialVars P.arguments)
      (Stmt.cleanL (dirStmts ⟨[], []⟩ (canonStmts (tautStmts out))).2 ++ [outputsLog P.returns]) := by
    have f3' : DirectivesFresh (initialVars P.arguments) (Stmt.cleanL (canonStmts (tautStmts out)) ++ [outputsLog P.returns]) :=
      directivesFresh_append_log.2 (f3.mono initial_sub_protected)
    have := dir_scoped sem (solvers := P.solvers) (ρ := ρ) (st := ⟨[], []⟩) (seen' := initialVars P.arguments)
      ⟨by intro x y h; simp at h, by simp⟩ (satAll_append.2 ⟨hs3, by rw [satAll_cons]; exact ⟨.log _, satAll_nil⟩⟩)
      (by
        intro s hs
        rcases List.mem_append.1 hs with hs | hs
        · exact hh3 s hs
        · rw [List.mem_singleton] at hs
          subst hs
          trivial)
      (fun x hx => by simpa [renVar] using hx) (by simp) (dirInv_init _) f3' w3
    rw [dirFlat_append] at this
    have e : (dirFlat (dirFlat ⟨[], []⟩ (Stmt.cleanL (canonStmts (tautStmts out)))).1 [(outputsLog P.returns : Stmt (ZMod p) Z)]).2
        = [outputsLog P.returns] := by
      simp only [dirFlat, outputsLog, dirLeaf, List.map_cons, List.map_nil, List.append_nil]
      rw [outputsLog_ren]
      intro r hr
      rw [dirFlat_keep hl3 (dirInv_init _) f3 r]
      · rfl
      · simp only [protectedVars, List.cons_append, List.mem_cons, List.mem_append]
        exact .inr (.inr hr)
    simp only [e] at this
    rw [(dirStmts_flat _ _).2]
    exact this
  have f4 : DirectivesFresh (protectedVars P.arguments P.returnCount)
      (Stmt.cleanL (dirStmts ⟨[], []⟩ (canonStmts (tautStmts out))).2) := by
    rw [(dirStmts_flat _ _).2]
    exact dir_fresh hl3 (dirInv_init _) (fun _ h => h) f3
  -- duplicates
  have hsep := hh _ _ he
  obtain ⟨w4a, w4b, -⟩ := wellScoped_append.1 w4
  have hout : ∀ r ∈ P.returns, r ∈ initialVars P.arguments ++
      Stmt.varsL (Stmt.cleanL (dirStmts ⟨[], []⟩ (canonStmts (tautStmts out))).2) := by
    intro r hr
    apply w4b
    show r ∈ (outputsLog P.returns : Stmt (ZMod p) Z).vars
    rw [vars_outputsLog]; exact hr
  refine ⟨hP.args, ?_, ?_, ?_⟩
  · show WellScoped (initialVars P.arguments) (dupStmts hash [] _).2
    rw [dupStmts_flat]
    exact dup_scoped (fun _ h => h) (by simp) (fun s hs t ht e => vars_dropError (hsep s hs t ht e)) w4a
  · show DirectivesFresh (protectedVars P.arguments P.returnCount) (dupStmts hash [] _).2
    rw [dupStmts_flat]
    exact dup_fresh (fun _ h => h) f4
  · intro r hr
    rcases List.mem_append.1 (hout r hr) with h | h
    · exact List.mem_append.2 (.inl h)
    · refine List.mem_append.2 (.inr ?_)
      rw [Stmt.mem_varsL] at h ⊢
      obtain ⟨s, hs, hrs⟩ := h
      obtain ⟨h1, h2⟩ := C12_dropped_has_kept_twin hash (dirStmts ⟨[], []⟩ (canonStmts (tautStmts out))).2
      obtain ⟨t, ht, e⟩ := h2 s hs
      exact ⟨t, ht, by rw [vars_dropError (hsep t (h1 t ht) s hs e)]; exact hrs⟩

theorem execute_honest {P : Prog (ZMod p) Z} (hP : SingleAssignment P) (hm : DirectivesMatch sem P.solvers P.statements)
    {ins : List (ZMod p)} {w : Witness (ZMod p)} (h : execute sem false ins P.statements P.arguments P.solvers = .ok w) :
    HonestAssignment sem P.solvers P.arguments ins P.statements (assignmentOf w) ∧
    SatAll (assignmentOf w) P.statements := by
  have hf : DirectivesFresh (initialVars P.arguments) P.statements := hP.fresh.mono initial_sub_protected
  obtain ⟨h1, h2, h3⟩ := C01_witness_satisfies sem false ins P.statements P.arguments P.solvers w hP.args hf h
  refine ⟨(honest_iff sem).2 ⟨?_, ?_, ?_⟩, h3⟩
  · simp [assignmentOf, h1]
  · have hmap : (P.arguments.map (fun a => SMap.get w a.id)).map (fun o => o.getD 0) = (ins.map some).map (fun o => o.getD 0) := by
      rw [h2]
    simp only [List.map_map] at hmap
    have e : List.map ((fun o => o.getD 0) ∘ some) ins = ins := by
      conv_rhs => rw [← List.map_id ins]
      exact List.map_congr_left (fun _ _ => rfl)
    rw [e] at hmap
    exact hmap
  · unfold execute at h
    split at h
    · cases h
    · rename_i hlen
      exact execStmts_directives sem h (initWitness_sorted _ _) (initWitness_keys _ _ (Decidable.byContradiction hlen)) hf hm

theorem executesTo_of_honest {P : Prog (ZMod p) Z} (hP : SingleAssignment P) {ins : List (ZMod p)} {ρ : Assignment (ZMod p)}
    (hρ : HonestAssignment sem P.solvers P.arguments ins P.statements ρ) (hs : SatAll ρ P.statements) :
    ExecutesTo sem P ins (P.returns.map ρ) := by
  obtain ⟨w, hw, hv⟩ := C02_no_spurious_failure sem ins P.statements P.arguments P.solvers hP.wellScoped ρ hρ hs
  refine ⟨w, hw, ?_⟩
  rw [List.map_map]
  apply List.map_congr_left
  intro r hr
  have hk := (C03_witness_domain sem false ins P.statements P.arguments P.solvers w hw r).2 (by
    rcases List.mem_append.1 (hP.outputs r hr) with h | h
    · rcases List.mem_cons.1 h with h | h
      · exact .inl h
      · exact .inr (.inl h)
    · exact .inr (.inr (Stmt.mem_varsL.1 h)))
  rw [← SMap.get_isSome_iff, Option.isSome_iff_exists] at hk
  obtain ⟨v, e⟩ := hk
  simp only [Function.comp, e, hv r v e]

/-- **C13** (execution). For programs in single-assignment form whose directives match their solvers, executing the
optimised program succeeds exactly when executing the original does, and with the same outputs. -/
theorem C13_execution_preserved {hash : Stmt (ZMod p) Z → ℕ} {P P' : Prog (ZMod p) Z} (hP : SingleAssignment P)
    (hm : DirectivesMatch sem P.solvers P.statements) (h : optimize sem hash P = some P')
    (hh : HashSeparatesRun sem hash P) (ins outs : List (ZMod p)) :
    ExecutesTo sem P ins outs ↔ ExecutesTo sem P' ins outs := by
  have hleafP := wellScoped_leaf hP.wellScoped
  have hclean := Stmt.cleanL_leaf hleafP
  constructor
  · rintro ⟨w, hw, ho⟩
    obtain ⟨hρ, hs⟩ := execute_honest sem hP hm hw
    obtain ⟨hρ', hs'⟩ := optimize_honest sem h (by rw [hclean]; exact hρ) hs
    have hP' := optimize_scoped sem hP h hh hρ hs
    rw [Stmt.cleanL_leaf (wellScoped_leaf hP'.wellScoped)] at hρ'
    have := executesTo_of_honest sem hP' hρ' hs'
    have e : P'.returns.map (assignmentOf w) = outs := by
      have hret : P'.returns = P.returns := by obtain ⟨_, _, _, rfl⟩ := optimize_some sem h; rfl
      rw [hret]
      have := congrArg (List.map (fun o => o.getD 0)) ho
      simp only [List.map_map] at this
      have e2 : List.map ((fun o : Option (ZMod p) => o.getD 0) ∘ some) outs = outs := by
        conv_rhs => rw [← List.map_id outs]
        exact List.map_congr_left (fun _ _ => rfl)
      rw [e2] at this
      exact this
    rw [e] at this
    exact this
  · rintro ⟨w', hw', ho⟩
    obtain ⟨st', out, he, rfl⟩ := optimize_some sem h
    have hd := firstUse_of_singleAssignment sem hP
    have f2 : DirectivesFresh (protectedVars P.arguments P.returnCount) (Stmt.cleanL out) :=
      fresh_after_redef sem he hd (by rw [hclean]; exact hP.fresh)
    have f3 := fresh_after_canon f2
    have hl3 : ∀ s ∈ Stmt.cleanL (canonStmts (tautStmts out)), s.IsLeaf := Stmt.isLeaf_of_clean
    have f4 : DirectivesFresh (protectedVars P.arguments P.returnCount)
        (Stmt.cleanL (dirStmts ⟨[], []⟩ (canonStmts (tautStmts out))).2) := by
      rw [(dirStmts_flat _ _).2]
      exact dir_fresh hl3 (dirInv_init _) (fun _ h => h) f3
    obtain ⟨hsub, htwin⟩ := C12_dropped_has_kept_twin hash (dirStmts ⟨[], []⟩ (canonStmts (tautStmts out))).2
    have hsep := hh _ _ he
    -- directives of the later programs come from directives of the original with the same solver and outputs
    obtain ⟨out', hfl, hdr⟩ := redefStmts_flat sem false P.statements he
    rw [flagL_leaf_eq hleafP] at hfl
    have m2 : DirectivesMatch sem P.solvers (Stmt.cleanL out) := by
      have : DirectivesMatch sem P.solvers out' := by
        have gen : ∀ (ss : List (Stmt (ZMod p) Z)) (st : RedefState (ZMod p)) (o : List (Stmt (ZMod p) Z)),
            (∀ s ∈ ss, s.IsLeaf) → DirectivesMatch sem P.solvers ss →
            redefFlat sem st (ss.map (fun s => (false, s))) = some (st', o) → DirectivesMatch sem P.solvers o := by
          intro ss
          induction ss with
          | nil =>
            intro st o _ _ ho
            simp only [redefFlat, List.map_nil, Option.some.injEq, Prod.mk.injEq] at ho
            intro d hd
            rw [← ho.2] at hd; cases hd
          | cons s ss ih =>
            intro st o hlf hmm ho
            rw [List.map_cons, redefFlat] at ho
            split at ho
            · cases ho
            · rename_i st1 o1 he1
              split at ho
              · cases ho
              · rename_i st2 o2 he2
                simp only [Option.some.injEq, Prod.mk.injEq] at ho
                obtain ⟨rfl, rfl⟩ := ho
                intro d hd
                rcases List.mem_append.1 hd with hd | hd
                · cases s with
                  | block _ => exact (hlf _ (List.mem_cons_self ..)).elim
                  | log es =>
                    simp only [redefLeaf, Option.some.injEq, Prod.mk.injEq] at he1
                    rw [← he1.2] at hd
                    simp at hd
                  | constraint c =>
                    cases redefConstraint_step (he1 : redefConstraint st c = some (st1, o1)) <;> simp at hd
                  | directive d0 =>
                    cases redefDirective_step sem (he1 : redefDirective sem false st d0 = some (st1, o1)) with
                    | const => simp at hd
                    | keep =>
                      simp only [List.mem_singleton, Stmt.directive.injEq] at hd
                      subst hd
                      exact hmm d0 (by simp)
                · exact ih st1 o2 (fun s hs => hlf s (by simp [hs])) (fun d hd => hmm d (by simp [hd])) he2 d hd
        exact gen P.statements _ out' hleafP hm hfl
      intro d hd
      exact this d (hdr.mem hd)
    have m3 : DirectivesMatch sem P.solvers (Stmt.cleanL (canonStmts (tautStmts out))) := by
      rw [cleanL_canonStmts, cleanL_tautStmts]
      intro d hd
      obtain ⟨u, hu, hud⟩ := List.mem_map.1 hd
      obtain ⟨v, hv, huv⟩ := List.mem_flatMap.1 hu
      have hhv := tautLeaf_step v
      revert huv
      generalize tautLeaf v = o at hhv
      cases hhv with
      | drop => simp
      | lin c l hl =>
        intro huv
        rw [List.mem_singleton] at huv
        subst huv
        simp [canonLeaf] at hud
      | keep =>
        intro huv
        rw [List.mem_singleton] at huv
        subst huv
        cases u with
        | directive d0 =>
          simp only [canonLeaf, Stmt.directive.injEq] at hud
          subst hud
          exact m2 d0 hv
        | block _ => simp [canonLeaf] at hud
        | constraint _ => simp [canonLeaf] at hud
        | log _ => simp [canonLeaf] at hud
    have w3 : WellScoped (protectedVars P.arguments P.returnCount) (Stmt.cleanL (canonStmts (tautStmts out))) := by
      rw [cleanL_canonStmts, cleanL_tautStmts]
      obtain ⟨-, -, hnone, hu⟩ := redefFlat_inv sem redefInv_init (Stmt.flagL_leaf false P.statements)
        (by rw [flagL_leaf_eq hleafP]; exact hfl) hd
      have w1 : WellScoped (initialVars P.arguments) out' := by
        refine redefFlat_scoped sem hfl (σf := st'.subst) (fun t ht => (hu t ht).2) (fun _ h => h)
          (seen := initialVars P.arguments) (by simp [initialVars]) (by intro x l hx; simp [redefInit] at hx)
          (fun x hx _ => hx) (by simp [initialVars]) ?_
        rw [List.map_map]
        have : P.statements.map (Prod.snd ∘ fun s => (false, s)) = P.statements := by
          conv_rhs => rw [← List.map_id P.statements]
          exact List.map_congr_left (fun _ _ => rfl)
        rw [this]
        exact hP.wellScoped
      have w2 := WellScoped.dropped hdr (fun x hx _ => hx) (fun t ht => (hu t ht).2) w1
      exact canon_scoped initial_sub_protected (taut_scoped (seen' := initialVars P.arguments) (by simp [initialVars]) (fun _ h => h) w2)
    -- the run of the optimised program is honest
    have hone4 : ∀ t ∈ Stmt.cleanL (dirStmts ⟨[], []⟩ (canonStmts (tautStmts out))).2,
        HonestStmt sem P.solvers (assignmentOf w') t := by
      have f5 : DirectivesFresh (initialVars P.arguments) (dupStmts hash [] (dirStmts ⟨[], []⟩ (canonStmts (tautStmts out))).2).2 := by
        rw [dupStmts_flat]
        exact dup_fresh initial_sub_protected f4
      have m4 : DirectivesMatch sem P.solvers (Stmt.cleanL (dirStmts ⟨[], []⟩ (canonStmts (tautStmts out))).2) := by
        rw [(dirStmts_flat _ _).2]
        have gen : ∀ (ss : List (Stmt (ZMod p) Z)) (st : DirState (ZMod p) Z) (seen : List Variable), (∀ s ∈ ss, s.IsLeaf) →
            DirInv seen st → DirectivesFresh seen ss → DirectivesMatch sem P.solvers ss → DirectivesMatch sem P.solvers (dirFlat st ss).2 := by
          intro ss
          induction ss with
          | nil => intro st seen _ _ _ _ d hd; cases hd
          | cons s ss ih =>
            intro st seen hlf hinv hfr hmm d hd
            have hinv1 := (dirLeaf_inv (hlf s (by simp)) hinv (fun d e => by subst e; exact hfr.1)).1
            rcases List.mem_append.1 hd with hd | hd
            · cases s with
              | block _ => exact (hlf _ (List.mem_cons_self ..)).elim
              | constraint c => simp [dirLeaf] at hd
              | log l => simp [dirLeaf] at hd
              | directive d0 =>
                have hren : d0.outputs.map (renVar st.subst) = d0.outputs := by
                  conv_rhs => rw [← List.map_id d0.outputs]
                  exact List.map_congr_left (fun o ho => hinv.fresh (hfr.1 o ho))
                simp only [dirLeaf, hren] at hd
                split at hd
                · simp only [List.mem_singleton, Stmt.directive.injEq] at hd
                  subst hd
                  exact hmm d0 (by simp)
                · simp at hd
            · exact ih _ _ (fun s hs => hlf s (by simp [hs])) hinv1 hfr.2 (fun d hd => hmm d (by simp [hd])) d hd
        exact gen _ _ _ hl3 (dirInv_init _) f3 m3
      have hrun : ∀ t ∈ (dupStmts hash [] (dirStmts ⟨[], []⟩ (canonStmts (tautStmts out))).2).2,
          HonestStmt sem P.solvers (assignmentOf w') t := by
        have h := hw'
        unfold execute at h
        split at h
        · cases h
        · rename_i hlen
          exact execStmts_directives sem h (initWitness_sorted _ _) (initWitness_keys _ _ (Decidable.byContradiction hlen)) f5
            (fun d hd => m4 d (hsub _ hd))
      intro t ht
      obtain ⟨u, hu, e⟩ := htwin t ht
      have hdrop := hsep u (hsub u hu) t ht e
      cases t with
      | directive d =>
        cases u with
        | directive d' =>
          simp only [Stmt.dropError] at hdrop
          rw [← hdrop]
          exact hrun _ hu
        | block _ => simp [Stmt.dropError] at hdrop
        | constraint _ => simp [Stmt.dropError] at hdrop
        | log _ => simp [Stmt.dropError] at hdrop
      | _ => trivial
    have hf5 : DirectivesFresh (initialVars P.arguments) (dupStmts hash [] (dirStmts ⟨[], []⟩ (canonStmts (tautStmts out))).2).2 := by
      rw [dupStmts_flat]
      exact dup_fresh initial_sub_protected f4
    obtain ⟨h1, h2, h3⟩ := C01_witness_satisfies sem false ins _ P.arguments P.solvers w' hP.args hf5 hw'
    have hρ1 : assignmentOf w' Variable.one = 1 := by simp [assignmentOf, h1]
    -- back through the directive optimiser
    rw [C12_duplicates_preserve hash _ hsep] at h3
    rw [← satAll_clean, (dirStmts_flat _ _).2] at h3
    rw [(dirStmts_flat _ _).2] at hone4
    have hsat3 := dirFlat_sat hl3 (dirInv_init (protectedVars P.arguments P.returnCount)) f3 h3
    have hhon3 := dirFlat_honest_back sem hl3 (dirInv_init (protectedVars P.arguments P.returnCount)) f3 w3 m3
      (ρ := assignmentOf w') (by simp) hone4
    have hkeep3 : ∀ x ∈ protectedVars P.arguments P.returnCount,
        assignmentOf w' (renVar (dirFlat ⟨[], []⟩ (Stmt.cleanL (canonStmts (tautStmts out)))).1.subst x) = assignmentOf w' x := by
      intro x hx
      congr 1
      unfold renVar
      rw [dirFlat_keep hl3 (dirInv_init _) f3 x hx]
      rfl
    generalize hρd : (fun x => assignmentOf w' (renVar (dirFlat ⟨[], []⟩ (Stmt.cleanL (canonStmts (tautStmts out)))).1.subst x)) = ρ1
      at hsat3 hhon3
    have hkeep3' : ∀ x ∈ protectedVars P.arguments P.returnCount, ρ1 x = assignmentOf w' x := by
      intro x hx; rw [← hρd]; exact hkeep3 x hx
    have h11 : ρ1 Variable.one = 1 := by rw [hkeep3' _ (by simp [protectedVars])]; exact hρ1
    -- back through the redefinition optimiser
    rw [satAll_clean, C10_canonical_preserves, C09_tautology_preserves _ _ h11] at hsat3
    rw [honest_canon] at hhon3
    obtain ⟨hsat0, hkeep0⟩ := redefinition_sound sem he hd h11 hsat3
    have hdist := redefFlat_inv sem redefInv_init (Stmt.flagL_leaf false P.statements)
        (by rw [flagL_leaf_eq hleafP]; exact hfl) hd
    obtain ⟨⟨ment', hinv', -⟩, -, hnone, hu⟩ := hdist
    -- nothing is dropped outside blocks
    have hout' : Stmt.cleanL out = out' := by
      have key : ∀ (ss : List (Stmt (ZMod p) Z)) (st : RedefState (ZMod p)) (s2 : RedefState (ZMod p)) (o o' : List (Stmt (ZMod p) Z)),
          (∀ s ∈ ss, s.IsLeaf) → redefStmts sem false st ss = some (s2, o) →
          redefFlat sem st (ss.map (fun s => (false, s))) = some (s2, o') → o = o' := by
        intro ss
        induction ss with
        | nil =>
          intro st s2 o o' _ h1 h2
          simp only [redefStmts, redefFlat, List.map_nil, Option.some.injEq, Prod.mk.injEq] at h1 h2
          rw [← h1.2, ← h2.2]
        | cons s ss ih =>
          intro st s2 o o' hlf h1 h2
          have hleafs := hlf s (by simp)
          have e : redefStmt sem false st s = redefLeaf sem false st s := by
            cases s with
            | block _ => exact hleafs.elim
            | _ => rfl
          rw [redefStmts, e] at h1
          rw [List.map_cons, redefFlat] at h2
          split at h1
          · cases h1
          · rename_i st1 o1 h1'
            rw [h1'] at h2
            simp only at h2
            split at h1
            · cases h1
            · rename_i st3 o3 h3
              split at h2
              · cases h2
              · rename_i st4 o4 h4
                simp only [Option.some.injEq, Prod.mk.injEq] at h1 h2
                obtain ⟨rfl, rfl⟩ := h1
                obtain ⟨rfl, rfl⟩ := h2
                rw [ih st1 _ o3 o4 (fun s hs => hlf s (by simp [hs])) h3 h4]
      have e := key P.statements _ _ out out' hleafP he hfl
      rw [← e]
      exact Stmt.cleanL_leaf (by rw [e]; exact fun t ht => (hu t ht).1)
    have hρ01 : OneIsOne (extendBy st'.subst ρ1) := by
      unfold OneIsOne
      rw [hkeep0 _ (by simp [protectedVars])]; exact h11
    obtain ⟨-, hhon0⟩ := redefFlat_honest_back sem (st := redefInit P.arguments P.returnCount) redefInv_init hleafP hfl
      (by rw [← flagL_leaf_eq hleafP]; exact hd) hP.fresh (fun _ h => h) (by intro x hx; simp [redefInit] at hx)
      (fun x hx => ⟨hx, rfl⟩) (fun d hd => (hm d hd).1) (ρ := extendBy st'.subst ρ1) (ρ' := ρ1) (solvers := P.solvers) hρ01
      (extendBy_respects hinv' ρ1) (fun x hx => extendBy_none hx) (by rw [← hout']; exact hhon3)
      (fun t ht => (hu t ht).2)
    -- run the original program
    have hval : ∀ x ∈ protectedVars P.arguments P.returnCount, extendBy st'.subst ρ1 x = assignmentOf w' x :=
      fun x hx => by rw [hkeep0 x hx, hkeep3' x hx]
    have hargs : P.arguments.map (fun a => extendBy st'.subst ρ1 a.id) = ins := by
      have hmap : (P.arguments.map (fun a => SMap.get w' a.id)).map (fun o => o.getD 0) = (ins.map some).map (fun o => o.getD 0) := by
        rw [h2]
      simp only [List.map_map] at hmap
      have e : List.map ((fun o => o.getD 0) ∘ some) ins = ins := by
        conv_rhs => rw [← List.map_id ins]
        exact List.map_congr_left (fun _ _ => rfl)
      rw [e] at hmap
      rw [← hmap]
      apply List.map_congr_left
      intro a ha
      refine hval _ ?_
      simp only [protectedVars, List.mem_cons, List.mem_append, List.mem_map]
      exact .inl (.inr ⟨a, ha, rfl⟩)
    have := executesTo_of_honest sem hP ((honest_iff sem).2 ⟨hρ01, hargs, hhon0⟩) hsat0
    have e : P.returns.map (extendBy st'.subst ρ1) = outs := by
      have h4 := congrArg (List.map (fun o => o.getD 0)) ho
      simp only [List.map_map] at h4
      have e2 : List.map ((fun o : Option (ZMod p) => o.getD 0) ∘ some) outs = outs := by
        conv_rhs => rw [← List.map_id outs]
        exact List.map_congr_left (fun _ _ => rfl)
      rw [e2] at h4
      rw [← h4]
      apply List.map_congr_left
      intro r hr
      refine hval _ ?_
      simp only [protectedVars, List.cons_append, List.mem_cons, List.mem_append]
      exact .inr (.inr hr)
    rw [e] at this
    exact this

end

end Zok
