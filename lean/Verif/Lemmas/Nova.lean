import Verif.Spec.Nova
import Verif.Lemmas.ExportSynth

/-
The step circuit of the Nova backend.
-/

namespace Zok.Nova
variable {F Z : Type _}

/-- The invariant of the synthesis: the symbols are the variables of the state and the allocated ones, each with its wire. -/
structure NInv (w0 : SMap F) (sv : List Variable) (s : NSynth F) : Prop where
  sorted : SMap.Sorted s.witness
  nodup : (sv ++ s.auxs.map Prod.fst).Nodup
  bound : ∀ v, (SMap.get s.symbols v).isSome ↔ v ∈ sv ++ s.auxs.map Prod.fst
  st : ∀ (i : ℕ) (v : Variable), sv[i]? = some v → SMap.get s.symbols v = some (.state i)
  aux : ∀ i e, s.auxs[i]? = some e → SMap.get s.symbols e.1 = some (.aux i) ∧ e.2 = SMap.get w0 e.1
  rem : ∀ v, v ∉ s.auxs.map Prod.fst → SMap.get s.witness v = SMap.get w0 v

theorem NInv.none_iff {w0 : SMap F} {sv : List Variable} {s : NSynth F} (h : NInv w0 sv s) (v : Variable) :
    SMap.get s.symbols v = none ↔ v ∉ sv ++ s.auxs.map Prod.fst := by
  rw [← h.bound]
  cases SMap.get s.symbols v <;> simp

theorem alloc_inv {w0 : SMap F} {sv : List Variable} {s : NSynth F} (h : NInv w0 sv s) {v : Variable}
    (hv : SMap.get s.symbols v = none) : NInv w0 sv (alloc s v).2 := by
  have hk := (h.none_iff v).1 hv
  refine ⟨SMap.sorted_erase h.sorted v, ?_, ?_, ?_, ?_, ?_⟩
  · simp only [alloc, List.map_append, List.map_cons, List.map_nil]
    rw [← List.append_assoc, (List.perm_append_singleton v _).nodup_iff, List.nodup_cons]
    exact ⟨hk, h.nodup⟩
  · intro u
    simp only [alloc, SMap.get_insert, List.map_append, List.map_cons, List.map_nil]
    have := h.bound u
    by_cases e : u = v
    · simp [e]
    · rw [if_neg e, this]
      simp [e]
  · intro i u hu
    have hne : u ≠ v := by
      rintro rfl
      exact hk (List.mem_append_left _ (List.mem_of_getElem? hu))
    simp only [alloc, SMap.get_insert, if_neg hne, h.st i u hu]
  · intro i e he
    simp only [alloc] at he ⊢
    rcases Nat.lt_trichotomy i s.auxs.length with hi | hi | hi
    · rw [List.getElem?_append_left hi] at he
      obtain ⟨a, b⟩ := h.aux i e he
      have hne : e.1 ≠ v := by
        intro hc
        exact hk (by rw [← hc]; exact List.mem_append_right _ (List.mem_map.2 ⟨e, List.mem_of_getElem? he, rfl⟩))
      exact ⟨by rw [SMap.get_insert, if_neg hne, a], b⟩
    · subst hi
      simp at he
      subst he
      exact ⟨by simp [SMap.get_insert], h.rem v fun hc => hk (List.mem_append_right _ hc)⟩
    · rw [List.getElem?_eq_none (by simp; omega)] at he
      cases he
  · intro u hu
    simp only [alloc, List.map_append, List.map_cons, List.map_nil] at hu ⊢
    rw [SMap.get_erase h.sorted, if_neg (by rintro rfl; exact hu (by simp)), h.rem u]
    intro hc
    exact hu (List.mem_append_left _ hc)

/-- Symbols are only added. -/
def Mono (s s' : NSynth F) : Prop := ∀ v w, SMap.get s.symbols v = some w → SMap.get s'.symbols v = some w

theorem Mono.trans {s s' s'' : NSynth F} (h : Mono s s') (h' : Mono s' s'') : Mono s s'' := fun v w e => h' v w (h v w e)

theorem alloc_mono {s : NSynth F} {v : Variable} (hv : SMap.get s.symbols v = none) : Mono s (alloc s v).2 := by
  intro u w hu
  have hne : u ≠ v := by
    rintro rfl
    rw [hv] at hu
    cases hu
  simp only [alloc, SMap.get_insert, if_neg hne, hu]

/-- Every output in `vs` has a symbol. -/
def Outs (s : NSynth F) (vs : List Variable) : Prop := ∀ v ∈ vs, (v : ℤ) < 0 → SMap.get s.symbols v ≠ none

theorem Outs.mono {s s' : NSynth F} {vs : List Variable} (h : Outs s vs) (m : Mono s s') : Outs s' vs := by
  intro v hv ho
  have := h v hv ho
  cases e : SMap.get s.symbols v with
  | none => exact absurd e this
  | some w =>
    rw [m v w e]
    simp

theorem symbol_spec {w0 : SMap F} {sv : List Variable} {s : NSynth F} (h : NInv w0 sv s) (v : Variable) (ho : Outs s [v]) :
    ∃ w s', symbol s v = some (w, s') ∧ NInv w0 sv s' ∧ Mono s s' ∧ s'.constraints = s.constraints ∧
      SMap.get s'.symbols v = some w := by
  unfold symbol
  cases e : SMap.get s.symbols v with
  | some w => exact ⟨w, s, rfl, h, fun _ _ h => h, rfl, e⟩
  | none =>
    have : v.isOutput = false := by
      by_contra hc
      rw [Bool.not_eq_false] at hc
      exact ho v (by simp) (by simpa [Variable.isOutput] using hc) e
    simp only [this, Bool.false_eq_true, if_false]
    exact ⟨_, _, rfl, alloc_inv h e, alloc_mono e, rfl, by simp [alloc, SMap.get_insert]⟩

theorem combination_spec {w0 : SMap F} {sv : List Variable} (l : LinComb F) {s : NSynth F} (h : NInv w0 sv s)
    (ho : Outs s (l.map Prod.fst)) :
    ∃ ts s', combination l s = some (ts, s') ∧ NInv w0 sv s' ∧ Mono s s' ∧ s'.constraints = s.constraints ∧
      ts.map Prod.fst = l.map Prod.snd ∧ ts.map (fun t => some t.2) = l.map fun t => SMap.get s'.symbols t.1 := by
  induction l generalizing s with
  | nil => exact ⟨[], s, rfl, h, fun _ _ h => h, rfl, rfl, rfl⟩
  | cons t l ih =>
    obtain ⟨k, v⟩ := t
    obtain ⟨w, s1, e1, i1, m1, c1, g1⟩ := symbol_spec h k (fun u hu => ho u (by
      rw [List.mem_singleton] at hu
      simp [hu]))
    obtain ⟨ts, s2, e2, i2, m2, c2, a2, b2⟩ := ih i1 (Outs.mono (fun u hu => ho u (List.mem_cons_of_mem _ hu)) m1)
    refine ⟨(v, w) :: ts, s2, ?_, i2, m1.trans m2, c2.trans c1, ?_, ?_⟩
    · unfold combination
      rw [e1]
      dsimp only
      rw [e2]
    · simp [a2]
    · simp [b2, m2 k w g1]

section
variable [Field F]

/-- `ρ` gives wires their values. -/
def WVal (s : NSynth F) (z : List F) (auxs : ℕ → F) (ρ : Assignment F) : Prop :=
  ∀ v w, SMap.get s.symbols v = some w → w.val z auxs = ρ v

theorem wireVal_combination (syms : SMap Wire) (z : List F) (auxs : ℕ → F) (ρ : Assignment F)
    (hρ : ∀ v w, SMap.get syms v = some w → w.val z auxs = ρ v) (l : LinComb F) (ts : List (F × Wire))
    (h1 : ts.map Prod.fst = l.map Prod.snd) (h2 : ts.map (fun t => some t.2) = l.map fun t => SMap.get syms t.1) :
    wireVal z auxs ts = l.val ρ := by
  unfold wireVal LinComb.val
  induction l generalizing ts with
  | nil => cases ts <;> simp_all
  | cons t l ih => cases ts with
    | nil => simp at h1
    | cons u ts =>
      simp only [List.map_cons, List.cons.injEq] at h1 h2 ⊢
      rw [List.sum_cons, List.sum_cons, ih ts h1.2 h2.2, h1.1, hρ t.1 u.2 h2.1.symm]

/-- A constraint of the circuit holds. -/
def WSat (z : List F) (auxs : ℕ → F) (c : List (F × Wire) × List (F × Wire) × List (F × Wire)) : Prop :=
  wireVal z auxs c.1 * wireVal z auxs c.2.1 = wireVal z auxs c.2.2

theorem synthStmt_spec {w0 : SMap F} {sv : List Variable} (st : Stmt F Z) {s : NSynth F} (h : NInv w0 sv s)
    (ho : ∀ c ∈ Export.topConstraint st, Outs s (c.quad.vars ++ c.lin.vars)) :
    ∃ s' cs, synthStmt s st = some s' ∧ NInv w0 sv s' ∧ Mono s s' ∧ s'.constraints = s.constraints ++ cs ∧
      ∀ z auxs ρ, WVal s' z auxs ρ → ((∀ c ∈ cs, WSat z auxs c) ↔ ∀ c ∈ Export.topConstraint st, c.Sat ρ) := by
  cases st with
  | constraint c =>
    have ho := ho c (by simp [Export.topConstraint])
    simp only [QuadComb.vars, LinComb.vars] at ho
    obtain ⟨a, s1, e1, i1, m1, c1, x1, y1⟩ := combination_spec c.quad.left h fun v hv => ho v (by simp [hv])
    obtain ⟨b, s2, e2, i2, m2, c2, x2, y2⟩ := combination_spec c.quad.right i1
      (Outs.mono (fun v hv => ho v (by simp [hv])) m1)
    obtain ⟨l, s3, e3, i3, m3, c3, x3, y3⟩ := combination_spec c.lin i2
      (Outs.mono (fun v hv => ho v (by simp [hv])) (m1.trans m2))
    refine ⟨{ s3 with constraints := s3.constraints ++ [(a, b, l)] }, [(a, b, l)], ?_,
      ⟨i3.sorted, i3.nodup, i3.bound, i3.st, i3.aux, i3.rem⟩, (m1.trans m2).trans m3, ?_, ?_⟩
    · simp [synthStmt, e1, e2, e3]
    · simp [c1, c2, c3]
    · intro z auxs ρ hρ
      have hρ : ∀ v w, SMap.get s3.symbols v = some w → w.val z auxs = ρ v := hρ
      simp only [List.mem_singleton, forall_eq, Export.topConstraint, WSat, Constraint.Sat, QuadComb.val]
      rw [wireVal_combination _ _ _ _ hρ _ _ x3 y3, wireVal_combination _ _ _ _ (fun v w hv => hρ v w (m3 v w hv)) _ _ x2 y2,
        wireVal_combination _ _ _ _ (fun v w hv => hρ v w (m3 v w (m2 v w hv))) _ _ x1 y1]
  | block ss => exact ⟨s, [], rfl, h, fun _ _ h => h, by simp, by simp [Export.topConstraint]⟩
  | directive d => exact ⟨s, [], rfl, h, fun _ _ h => h, by simp, by simp [Export.topConstraint]⟩
  | log l => exact ⟨s, [], rfl, h, fun _ _ h => h, by simp, by simp [Export.topConstraint]⟩

theorem synthStmts_spec {w0 : SMap F} {sv : List Variable} (ss : List (Stmt F Z)) {s : NSynth F} (h : NInv w0 sv s)
    (ho : ∀ c, Stmt.constraint c ∈ ss → Outs s (c.quad.vars ++ c.lin.vars)) :
    ∃ s' cs, synthStmts s ss = some s' ∧ NInv w0 sv s' ∧ Mono s s' ∧ s'.constraints = s.constraints ++ cs ∧
      ∀ z auxs ρ, WVal s' z auxs ρ → ((∀ c ∈ cs, WSat z auxs c) ↔ ∀ c, Stmt.constraint c ∈ ss → c.Sat ρ) := by
  induction ss generalizing s with
  | nil => exact ⟨s, [], rfl, h, fun _ _ h => h, by simp, by simp⟩
  | cons st ss ih =>
    obtain ⟨s1, cs1, e1, i1, m1, c1, a1⟩ := synthStmt_spec st h (fun c hc => ho c (by
      cases st <;> simp [Export.topConstraint] at hc
      subst hc
      simp))
    obtain ⟨s2, cs2, e2, i2, m2, c2, a2⟩ := ih i1 (fun c hc => Outs.mono (ho c (List.mem_cons_of_mem _ hc)) m1)
    refine ⟨s2, cs1 ++ cs2, by simp [synthStmts, e1, e2], i2, m1.trans m2, by rw [c2, c1, List.append_assoc], ?_⟩
    intro z auxs ρ hρ
    have b1 := a1 z auxs ρ fun v w hv => hρ v w (m2 v w hv)
    have b2 := a2 z auxs ρ hρ
    simp only [List.mem_append, or_imp, forall_and, List.mem_cons]
    rw [b1, b2]
    cases st <;> simp [Export.topConstraint]

end

theorem bindState_get (args : List Parameter) (i n : ℕ) (m : SMap Wire) (nd : (args.map Parameter.id).Nodup) (v : Variable) :
    SMap.get (bindState args i n m) v = match ((args.take n).map Parameter.id).idxOf? v with
      | some k => some (.state (i + k))
      | none => SMap.get m v := by
  induction args generalizing i n m with
  | nil => cases n <;> simp [bindState]
  | cons a args ih => cases n with
    | zero => simp [bindState]
    | succ n =>
      simp only [List.map_cons, List.nodup_cons] at nd
      rw [bindState, ih _ _ _ nd.2, List.take_succ_cons, List.map_cons, List.idxOf?_cons]
      by_cases e : a.id = v
      · subst e
        have : ((args.take n).map Parameter.id).idxOf? a.id = none := by
          rw [List.idxOf?_eq_none_iff]
          intro hc
          obtain ⟨b, hb, hb'⟩ := List.mem_map.1 hc
          exact nd.1 (List.mem_map.2 ⟨b, List.mem_of_mem_take hb, hb'⟩)
        rw [this]
        simp [SMap.get_insert]
      · have e' : ¬ v = a.id := fun h => e h.symm
        cases hk : ((args.take n).map Parameter.id).idxOf? v with
        | none => simp [e, SMap.get_insert, e']
        | some k =>
          simp only [beq_iff_eq, e, if_false, Option.map_some]
          congr 2
          omega

/-- The variables of the state. -/
def stateVars (P : Prog F Z) (n : ℕ) : List Variable := (P.arguments.take n).map Parameter.id

theorem bindState_inv (P : Prog F Z) (n : ℕ) (args : Export.ArgsInternal P) (w : SMap F) (hw : SMap.Sorted w) :
    NInv w (stateVars P n) ⟨bindState P.arguments 0 n [], w, [], []⟩ := by
  have nd : (stateVars P n).Nodup := by
    unfold stateVars
    rw [List.map_take]
    exact args.1.sublist (List.take_sublist _ _)
  have hg : ∀ v, SMap.get (bindState P.arguments 0 n []) v = ((stateVars P n).idxOf? v).map Wire.state := by
    intro v
    rw [bindState_get _ _ _ _ args.1]
    unfold stateVars
    cases ((P.arguments.take n).map Parameter.id).idxOf? v <;> simp [SMap.get]
  refine ⟨hw, by simpa using nd, ?_, ?_, by simp, by simp⟩
  · intro v
    simp only [hg, List.map_nil, List.append_nil]
    cases e : (stateVars P n).idxOf? v with
    | none =>
      rw [List.idxOf?_eq_none_iff] at e
      simp [e]
    | some k =>
      simp only [Option.map_some, Option.isSome_some, true_iff]
      by_contra hc
      rw [← List.idxOf?_eq_none_iff, e] at hc
      cases hc
  · intro i v hv
    simp only [hg]
    have hi : i < (stateVars P n).length := by
      by_contra hc
      rw [List.getElem?_eq_none (by omega)] at hv
      cases hv
    rw [List.getElem?_eq_getElem hi] at hv
    cases hv
    have : (stateVars P n).idxOf? (stateVars P n)[i] = some i := by
      unfold List.idxOf?
      rw [List.findIdx?_eq_some_iff_getElem]
      refine ⟨hi, by simp, ?_⟩
      intro j hj hc
      exact (Nat.ne_of_lt hj) ((nd.getElem_inj_iff).1 (beq_iff_eq.1 hc))
    rw [this]
    rfl

theorem allocOutputs_inv {w0 : SMap F} {sv : List Variable} (vs : List Variable) {s : NSynth F} (h : NInv w0 sv s) (nd : vs.Nodup)
    (hv : ∀ v ∈ vs, SMap.get s.symbols v = none) :
    NInv w0 sv (allocOutputs s vs).2 ∧ Mono s (allocOutputs s vs).2 ∧ (allocOutputs s vs).2.constraints = s.constraints ∧
      (allocOutputs s vs).1.map some = vs.map fun v => SMap.get (allocOutputs s vs).2.symbols v := by
  induction vs generalizing s with
  | nil => exact ⟨h, fun _ _ h => h, rfl, rfl⟩
  | cons v vs ih =>
    rw [List.nodup_cons] at nd
    have hn := hv v (by simp)
    obtain ⟨i1, m1, c1, g1⟩ := ih (alloc_inv h hn) nd.2 (by
      intro u hu
      have : u ≠ v := by
        rintro rfl
        exact nd.1 hu
      simp only [alloc, SMap.get_insert, if_neg this]
      exact hv u (List.mem_cons_of_mem _ hu))
    refine ⟨i1, (alloc_mono hn).trans m1, c1, ?_⟩
    simp only [allocOutputs, List.map_cons, g1]
    rw [m1 v (alloc s v).1 (by simp [alloc])]

/-! ### What is allocated -/

theorem symbol_auxs {s s' : NSynth F} {v : Variable} {w : Wire} (h : symbol s v = some (w, s')) :
    ∀ e ∈ s'.auxs, e ∈ s.auxs ∨ e.1 = v := by
  unfold symbol at h
  split at h
  · cases h
    exact fun e he => Or.inl he
  · split at h
    · cases h
    · cases h
      intro e he
      simp only [alloc, List.mem_append, List.mem_singleton] at he
      rcases he with he | rfl
      · exact Or.inl he
      · exact Or.inr rfl

theorem combination_auxs {l : LinComb F} {s s' : NSynth F} {ts : List (F × Wire)} (h : combination l s = some (ts, s')) :
    ∀ e ∈ s'.auxs, e ∈ s.auxs ∨ e.1 ∈ l.map Prod.fst := by
  induction l generalizing s ts with
  | nil =>
    cases h
    exact fun e he => Or.inl he
  | cons t l ih =>
    obtain ⟨k, v⟩ := t
    unfold combination at h
    split at h
    · cases h
    · rename_i w s1 e1
      split at h
      · cases h
      · rename_i ts' s2 e2
        cases h
        intro e he
        rcases ih e2 e he with h1 | h1
        · rcases symbol_auxs e1 e h1 with h2 | h2
          · exact Or.inl h2
          · exact Or.inr (by simp [h2])
        · exact Or.inr (List.mem_cons_of_mem _ h1)

theorem synthStmts_auxs {ss : List (Stmt F Z)} {s s' : NSynth F} (h : synthStmts s ss = some s') :
    ∀ e ∈ s'.auxs, e ∈ s.auxs ∨ ∃ c, Stmt.constraint c ∈ ss ∧ e.1 ∈ c.quad.left.map Prod.fst ++ c.quad.right.map Prod.fst ++
      c.lin.map Prod.fst := by
  induction ss generalizing s with
  | nil =>
    cases h
    exact fun e he => Or.inl he
  | cons st ss ih =>
    unfold synthStmts at h
    split at h
    · cases h
    · rename_i s1 e1
      intro e he
      rcases ih h e he with h1 | ⟨c, h1, h2⟩
      · cases st with
        | constraint c =>
          cases ea : combination c.quad.left s with
          | none => simp [synthStmt, ea] at e1
          | some r =>
            obtain ⟨a, sa⟩ := r
            cases eb : combination c.quad.right sa with
            | none => simp [synthStmt, ea, eb] at e1
            | some r =>
              obtain ⟨b, sb⟩ := r
              cases el : combination c.lin sb with
              | none => simp [synthStmt, ea, eb, el] at e1
              | some r =>
                obtain ⟨l, sl⟩ := r
                simp only [synthStmt, ea, eb, el, Option.some.injEq] at e1
                subst e1
                rcases combination_auxs el e h1 with h | h
                · rcases combination_auxs eb e h with h | h
                  · rcases combination_auxs ea e h with h | h
                    · exact Or.inl h
                    · exact Or.inr ⟨c, by simp, List.mem_append_left _ (List.mem_append_left _ h)⟩
                  · exact Or.inr ⟨c, by simp, List.mem_append_left _ (List.mem_append_right _ h)⟩
                · exact Or.inr ⟨c, by simp, List.mem_append_right _ h⟩
        | block _ => cases e1; exact Or.inl h1
        | directive _ => cases e1; exact Or.inl h1
        | log _ => cases e1; exact Or.inl h1
      · exact Or.inr ⟨c, List.mem_cons_of_mem _ h1, h2⟩

theorem allocOutputs_auxs (vs : List Variable) (s : NSynth F) : ∀ e ∈ (allocOutputs s vs).2.auxs, e ∈ s.auxs ∨ e.1 ∈ vs := by
  induction vs generalizing s with
  | nil => exact fun e he => Or.inl he
  | cons v vs ih =>
    intro e he
    rcases ih _ e he with h | h
    · simp only [alloc, List.mem_append, List.mem_singleton] at h
      rcases h with h | rfl
      · exact Or.inl h
      · exact Or.inr (by simp)
    · exact Or.inr (List.mem_cons_of_mem _ h)

/-! ### The circuit does not depend on the witness -/

/-- Two states which differ in their witnesses only. -/
def Same (s t : NSynth F) : Prop :=
  s.symbols = t.symbols ∧ s.auxs.map Prod.fst = t.auxs.map Prod.fst ∧ s.constraints = t.constraints

theorem Same.len {s t : NSynth F} (h : Same s t) : s.auxs.length = t.auxs.length := by
  have := congrArg List.length h.2.1
  simpa using this

theorem alloc_same {s t : NSynth F} (h : Same s t) (v : Variable) :
    (alloc s v).1 = (alloc t v).1 ∧ Same (alloc s v).2 (alloc t v).2 := by
  refine ⟨by simp [alloc, h.len], ?_, ?_, h.2.2⟩
  · simp [alloc, h.len, h.1]
  · simp [alloc, h.2.1]

theorem symbol_same {s t : NSynth F} (h : Same s t) (v : Variable) :
    (symbol s v = none ∧ symbol t v = none) ∨ ∃ w s' t', symbol s v = some (w, s') ∧ symbol t v = some (w, t') ∧ Same s' t' := by
  unfold symbol
  rw [h.1]
  cases SMap.get t.symbols v with
  | some w => exact Or.inr ⟨w, s, t, rfl, rfl, h⟩
  | none =>
    by_cases ho : v.isOutput
    · simp [ho]
    · obtain ⟨h1, h2⟩ := alloc_same h v
      simp only [ho, Bool.false_eq_true, if_false]
      exact Or.inr ⟨(alloc s v).1, (alloc s v).2, (alloc t v).2, rfl, by rw [h1], h2⟩

theorem combination_same (l : LinComb F) {s t : NSynth F} (h : Same s t) :
    (combination l s = none ∧ combination l t = none) ∨
      ∃ ts s' t', combination l s = some (ts, s') ∧ combination l t = some (ts, t') ∧ Same s' t' := by
  induction l generalizing s t with
  | nil => exact Or.inr ⟨[], s, t, rfl, rfl, h⟩
  | cons x l ih =>
    obtain ⟨k, v⟩ := x
    unfold combination
    rcases symbol_same h k with ⟨h1, h2⟩ | ⟨w, s', t', h1, h2, h3⟩
    · rw [h1, h2]
      simp
    · rw [h1, h2]
      rcases ih h3 with ⟨h4, h5⟩ | ⟨ts, s'', t'', h4, h5, h6⟩
      · simp [h4, h5]
      · simp only [h4, h5]
        exact Or.inr ⟨_, _, _, rfl, rfl, h6⟩

theorem synthStmts_same (ss : List (Stmt F Z)) {s t : NSynth F} (h : Same s t) :
    (synthStmts s ss = none ∧ synthStmts t ss = none) ∨
      ∃ s' t', synthStmts s ss = some s' ∧ synthStmts t ss = some t' ∧ Same s' t' := by
  induction ss generalizing s t with
  | nil => exact Or.inr ⟨s, t, rfl, rfl, h⟩
  | cons st ss ih =>
    have h1 : (synthStmt s st = none ∧ synthStmt t st = none) ∨
        ∃ s' t', synthStmt s st = some s' ∧ synthStmt t st = some t' ∧ Same s' t' := by
      cases st with
      | constraint c =>
        simp only [synthStmt]
        rcases combination_same c.quad.left h with ⟨h1, h2⟩ | ⟨a, s1, t1, h1, h2, h3⟩
        · simp [h1, h2]
        rcases combination_same c.quad.right h3 with ⟨h4, h5⟩ | ⟨b, s2, t2, h4, h5, h6⟩
        · simp [h1, h2, h4, h5]
        rcases combination_same c.lin h6 with ⟨h7, h8⟩ | ⟨l, s3, t3, h7, h8, h9⟩
        · simp [h1, h2, h4, h5, h7, h8]
        simp only [h1, h2, h4, h5, h7, h8]
        exact Or.inr ⟨_, _, rfl, rfl, h9.1, h9.2.1, by simp [h9.2.2]⟩
      | block _ => exact Or.inr ⟨s, t, rfl, rfl, h⟩
      | directive _ => exact Or.inr ⟨s, t, rfl, rfl, h⟩
      | log _ => exact Or.inr ⟨s, t, rfl, rfl, h⟩
    unfold synthStmts
    rcases h1 with ⟨h1, h2⟩ | ⟨s', t', h1, h2, h3⟩
    · simp [h1, h2]
    · simp only [h1, h2]
      exact ih h3

theorem allocOutputs_same (vs : List Variable) {s t : NSynth F} (h : Same s t) :
    (allocOutputs s vs).1 = (allocOutputs t vs).1 ∧ Same (allocOutputs s vs).2 (allocOutputs t vs).2 := by
  induction vs generalizing s t with
  | nil => exact ⟨rfl, h⟩
  | cons v vs ih =>
    obtain ⟨h1, h2⟩ := alloc_same h v
    obtain ⟨h3, h4⟩ := ih h2
    exact ⟨by simp [allocOutputs, h1, h3], h4⟩

/-! ### The whole circuit -/

theorem accepts_iff (P : Prog F Z) : accepts P = true ↔ (P.arguments.filter fun a => !a.priv).length = P.returnCount := by
  unfold accepts Prog.publicCount
  rw [decide_eq_true_iff]
  omega

theorem returns_neg (P : Prog F Z) (v : Variable) (hv : v ∈ P.returns) : (v : ℤ) < 0 := by
  obtain ⟨i, -, rfl⟩ := List.mem_map.1 hv
  show (-(i : ℤ) - 1) < 0
  omega

theorem returns_nodup (P : Prog F Z) : P.returns.Nodup := by
  unfold Prog.returns
  refine List.Nodup.map ?_ List.nodup_range
  intro i j h
  have h : (-(i : ℤ) - 1) = -(j : ℤ) - 1 := h
  omega

section
variable [Field F]

theorem synthesize_spec (P : Prog F Z) (n : ℕ) (hacc : accepts P = true) (args : Export.ArgsInternal P) (ho : OutputsDeclared P)
    (w : SMap F) (hw : SMap.Sorted w) :
    ∃ outs s, synthesize P n w = some (outs, s) ∧ NInv w (stateVars P n) s ∧
      outs.map some = P.returns.map (fun v => SMap.get s.symbols v) ∧
      ∀ z auxs ρ, WVal s z auxs ρ → ((∀ c ∈ s.constraints, WSat z auxs c) ↔ ∀ c, Stmt.constraint c ∈ P.statements → c.Sat ρ) := by
  have i0 := bindState_inv P n args w hw
  obtain ⟨i1, m1, c1, g1⟩ := allocOutputs_inv P.returns i0 (returns_nodup P) (by
    intro v hv
    rw [i0.none_iff]
    intro hc
    simp only [List.map_nil, List.append_nil, stateVars] at hc
    obtain ⟨a, ha, rfl⟩ := List.mem_map.1 hc
    have h1 := returns_neg P _ hv
    exact lt_asymm h1 (args.2 a (List.mem_of_mem_take ha)))
  obtain ⟨s, cs, e, i2, m2, c2, a2⟩ := synthStmts_spec P.statements i1 (by
    intro c hc v hv hneg hn
    have := ho c hc v hv hneg
    have h2 : SMap.get (allocOutputs ⟨bindState P.arguments 0 n [], w, [], []⟩ P.returns).2.symbols v ∈
        P.returns.map fun v => SMap.get (allocOutputs ⟨bindState P.arguments 0 n [], w, [], []⟩ P.returns).2.symbols v :=
      List.mem_map.2 ⟨v, this, rfl⟩
    rw [← g1, hn] at h2
    obtain ⟨x, -, hx⟩ := List.mem_map.1 h2
    cases hx)
  refine ⟨(allocOutputs ⟨bindState P.arguments 0 n [], w, [], []⟩ P.returns).1, s, ?_, i2, ?_, ?_⟩
  · unfold synthesize
    rw [if_pos hacc]
    dsimp only
    rw [e]
  · rw [g1]
    refine List.map_congr_left fun v hv => ?_
    have h2 : SMap.get (allocOutputs ⟨bindState P.arguments 0 n [], w, [], []⟩ P.returns).2.symbols v ∈
        P.returns.map fun v => SMap.get (allocOutputs ⟨bindState P.arguments 0 n [], w, [], []⟩ P.returns).2.symbols v :=
      List.mem_map.2 ⟨v, hv, rfl⟩
    rw [← g1] at h2
    obtain ⟨x, -, hx⟩ := List.mem_map.1 h2
    rw [← hx]
    exact (m2 v x hx.symm).symm
  · intro z auxs ρ hρ
    have h := a2 z auxs ρ hρ
    have e3 : s.constraints = cs := by rw [c2, c1]; rfl
    rw [e3]
    exact h

/-- The values given to the allocated variables by an assignment. -/
def auxsOf (s : NSynth F) (ρ : Assignment F) (k : ℕ) : F := (s.auxs[k]?).elim 0 fun e => ρ e.1

theorem wval_of {w0 : SMap F} {sv : List Variable} {s : NSynth F} (h : NInv w0 sv s) (z : List F) (ρ : Assignment F)
    (hz : sv.map ρ = z) : WVal s z (auxsOf s ρ) ρ := by
  intro v wire hv
  have hb := (h.bound v).1 (by rw [hv]; rfl)
  rcases List.mem_append.1 hb with hb | hb
  · obtain ⟨i, hi⟩ := List.getElem?_of_mem hb
    rw [h.st i v hi] at hv
    cases hv
    subst hz
    simp [Wire.val, List.getD_eq_getElem?_getD, List.getElem?_map, hi]
  · obtain ⟨e, he, rfl⟩ := List.mem_map.1 hb
    obtain ⟨i, hi⟩ := List.getElem?_of_mem he
    rw [(h.aux i e hi).1] at hv
    cases hv
    simp [Wire.val, auxsOf, hi]

theorem outs_val {outs : List Wire} {vs : List Variable} {s : NSynth F}
    (ho : outs.map some = vs.map (fun v => SMap.get s.symbols v)) {z : List F} {auxs : ℕ → F} {ρ : Assignment F}
    (h : WVal s z auxs ρ) : outs.map (Wire.val z auxs) = vs.map ρ := by
  induction vs generalizing outs with
  | nil => cases outs <;> simp_all
  | cons v vs ih => cases outs with
    | nil => simp at ho
    | cons o outs =>
      simp only [List.map_cons, List.cons.injEq] at ho ⊢
      exact ⟨h v o ho.1.symm, ih ho.2⟩

end

end Zok.Nova
