import Verif.Lemmas.ExportWitness

/-
The circuit handed to a proving backend.
-/

namespace Zok.Export
variable {F Z : Type _}

/-- The invariant of the synthesis: every symbol is a wire allocated for that variable. -/
structure SynthInv (w0 : SMap F) (s : Synth F) : Prop where
  sorted : SMap.Sorted s.witness
  nodup : (Variable.one :: (s.inputs.map Prod.fst ++ s.auxs.map Prod.fst)).Nodup
  bound : ∀ v, (SMap.get s.symbols v).isSome ↔ v ∈ Variable.one :: (s.inputs.map Prod.fst ++ s.auxs.map Prod.fst)
  one : SMap.get s.symbols Variable.one = some .one
  inp : ∀ i e, s.inputs[i]? = some e → SMap.get s.symbols e.1 = some (.input i) ∧ e.2 = SMap.get w0 e.1
  aux : ∀ i e, s.auxs[i]? = some e → SMap.get s.symbols e.1 = some (.aux i) ∧ e.2 = SMap.get w0 e.1
  rem : ∀ v, v ∉ s.inputs.map Prod.fst ++ s.auxs.map Prod.fst → SMap.get s.witness v = SMap.get w0 v

/-- The variables with a wire. -/
def Synth.known (s : Synth F) : List Variable := Variable.one :: (s.inputs.map Prod.fst ++ s.auxs.map Prod.fst)

/-- Allocation of a public wire, with its symbol. -/
def newInput (s : Synth F) (v : Variable) : Synth F :=
  { (allocInput s v).2 with symbols := SMap.insert s.symbols v (.input s.inputs.length) }

/-- Allocation of an auxiliary wire, with its symbol. -/
def newAux (s : Synth F) (v : Variable) : Synth F :=
  { (allocAux s v).2 with symbols := SMap.insert s.symbols v (.aux s.auxs.length) }

theorem newInput_inv {w0 : SMap F} {s : Synth F} (h : SynthInv w0 s) {v : Variable} (hv : v ∉ s.known) :
    SynthInv w0 (newInput s v) := by
  unfold Synth.known at hv
  have hv1 : v ≠ Variable.one := fun e => hv (by simp [e])
  have hv2 : v ∉ s.inputs.map Prod.fst ++ s.auxs.map Prod.fst := fun e => hv (List.mem_cons_of_mem _ e)
  have hwv := h.rem v hv2
  refine ⟨SMap.sorted_erase h.sorted v, ?_, ?_, ?_, ?_, ?_, ?_⟩
  · have := h.nodup
    simp only [newInput, allocInput, List.map_append, List.map_cons, List.map_nil]
    have hp : (Variable.one :: (s.inputs.map Prod.fst ++ [v] ++ s.auxs.map Prod.fst)).Perm
        (v :: Variable.one :: (s.inputs.map Prod.fst ++ s.auxs.map Prod.fst)) := by
      refine List.Perm.trans (List.Perm.cons _ ?_) (List.Perm.swap _ _ _)
      rw [List.append_assoc, List.singleton_append]
      exact List.perm_middle
    rw [hp.nodup_iff, List.nodup_cons]
    exact ⟨hv, this⟩
  · intro u
    simp only [newInput, allocInput, SMap.get_insert, List.map_append, List.map_cons, List.map_nil]
    have := h.bound u
    by_cases e : u = v
    · simp [e]
    · rw [if_neg e, this]
      simp [e]
  · simp only [newInput, SMap.get_insert, if_neg hv1.symm, h.one]
  · intro i e he
    simp only [newInput, allocInput] at he ⊢
    rcases Nat.lt_trichotomy i s.inputs.length with hi | hi | hi
    · rw [List.getElem?_append_left hi] at he
      obtain ⟨a, b⟩ := h.inp i e he
      have hne : e.1 ≠ v := by
        intro hc
        exact hv2 (by rw [← hc]; exact List.mem_append_left _ (List.mem_map.2 ⟨e, List.mem_of_getElem? he, rfl⟩))
      exact ⟨by rw [SMap.get_insert, if_neg hne, a], b⟩
    · subst hi
      simp at he
      subst he
      exact ⟨by simp [SMap.get_insert], hwv⟩
    · rw [List.getElem?_eq_none (by simp; omega)] at he
      cases he
  · intro i e he
    simp only [newInput, allocInput] at he ⊢
    obtain ⟨a, b⟩ := h.aux i e he
    have hne : e.1 ≠ v := by
      intro hc
      exact hv2 (by rw [← hc]; exact List.mem_append_right _ (List.mem_map.2 ⟨e, List.mem_of_getElem? he, rfl⟩))
    exact ⟨by rw [SMap.get_insert, if_neg hne, a], b⟩
  · intro u hu
    simp only [newInput, allocInput, List.map_append, List.map_cons, List.map_nil] at hu ⊢
    rw [SMap.get_erase h.sorted, if_neg (by rintro rfl; exact hu (by simp)), h.rem u]
    intro hc
    rcases List.mem_append.1 hc with hc | hc
    · exact hu (by simp [hc])
    · exact hu (List.mem_append_right _ hc)

theorem newAux_inv {w0 : SMap F} {s : Synth F} (h : SynthInv w0 s) {v : Variable} (hv : v ∉ s.known) :
    SynthInv w0 (newAux s v) := by
  unfold Synth.known at hv
  have hv1 : v ≠ Variable.one := fun e => hv (by simp [e])
  have hv2 : v ∉ s.inputs.map Prod.fst ++ s.auxs.map Prod.fst := fun e => hv (List.mem_cons_of_mem _ e)
  have hwv := h.rem v hv2
  refine ⟨SMap.sorted_erase h.sorted v, ?_, ?_, ?_, ?_, ?_, ?_⟩
  · have := h.nodup
    simp only [newAux, allocAux, List.map_append, List.map_cons, List.map_nil]
    have hp : (Variable.one :: (s.inputs.map Prod.fst ++ (s.auxs.map Prod.fst ++ [v]))).Perm
        (v :: Variable.one :: (s.inputs.map Prod.fst ++ s.auxs.map Prod.fst)) := by
      refine List.Perm.trans (List.Perm.cons _ ?_) (List.Perm.swap _ _ _)
      rw [← List.append_assoc]
      exact List.perm_append_singleton _ _
    rw [hp.nodup_iff, List.nodup_cons]
    exact ⟨hv, this⟩
  · intro u
    simp only [newAux, allocAux, SMap.get_insert, List.map_append, List.map_cons, List.map_nil]
    have := h.bound u
    by_cases e : u = v
    · simp [e]
    · rw [if_neg e, this]
      simp [e]
  · simp only [newAux, SMap.get_insert, if_neg hv1.symm, h.one]
  · intro i e he
    simp only [newAux, allocAux] at he ⊢
    obtain ⟨a, b⟩ := h.inp i e he
    have hne : e.1 ≠ v := by
      intro hc
      exact hv2 (by rw [← hc]; exact List.mem_append_left _ (List.mem_map.2 ⟨e, List.mem_of_getElem? he, rfl⟩))
    exact ⟨by rw [SMap.get_insert, if_neg hne, a], b⟩
  · intro i e he
    simp only [newAux, allocAux] at he ⊢
    rcases Nat.lt_trichotomy i s.auxs.length with hi | hi | hi
    · rw [List.getElem?_append_left hi] at he
      obtain ⟨a, b⟩ := h.aux i e he
      have hne : e.1 ≠ v := by
        intro hc
        exact hv2 (by rw [← hc]; exact List.mem_append_right _ (List.mem_map.2 ⟨e, List.mem_of_getElem? he, rfl⟩))
      exact ⟨by rw [SMap.get_insert, if_neg hne, a], b⟩
    · subst hi
      simp at he
      subst he
      exact ⟨by simp [SMap.get_insert], hwv⟩
    · rw [List.getElem?_eq_none (by simp; omega)] at he
      cases he
  · intro u hu
    simp only [newAux, allocAux, List.map_append, List.map_cons, List.map_nil] at hu ⊢
    rw [SMap.get_erase h.sorted, if_neg (by rintro rfl; exact hu (by simp)), h.rem u]
    intro hc
    rcases List.mem_append.1 hc with hc | hc
    · exact hu (List.mem_append_left _ hc)
    · exact hu (by simp [hc])

/-- A variable that is new. -/
def fresh1 (s : Synth F) (v : Variable) : Synth F := if v.isOutput then newInput s v else newAux s v

theorem symbol_eq (s : Synth F) (v : Variable) : symbol s v = match SMap.get s.symbols v with
    | some w => (w, s)
    | none => ((if v.isOutput then .input s.inputs.length else .aux s.auxs.length), fresh1 s v) := by
  unfold symbol fresh1 newInput newAux
  cases SMap.get s.symbols v with
  | some w => rfl
  | none => by_cases h : v.isOutput <;> simp [h, allocInput, allocAux]

/-- What a sequence of `symbol` calls does. -/
structure Grow (w0 : SMap F) (s s' : Synth F) (vs : List Variable) : Prop where
  inv : SynthInv w0 s'
  mono : ∀ v w, SMap.get s.symbols v = some w → SMap.get s'.symbols v = some w
  inputs : s'.inputs.map Prod.fst = s.inputs.map Prod.fst ++ (firstOccurrences s.known vs).filter Variable.isOutput
  auxs : s'.auxs.map Prod.fst = s.auxs.map Prod.fst ++ (firstOccurrences s.known vs).filter fun v => !v.isOutput

theorem firstOccurrences_congr (a b : List Variable) (h : ∀ v, v ∈ a ↔ v ∈ b) (vs : List Variable) :
    firstOccurrences a vs = firstOccurrences b vs := by
  induction vs generalizing a b with
  | nil => rfl
  | cons v vs ih =>
    simp only [firstOccurrences, h]
    rw [ih a b h, ih (v :: a) (v :: b) (by simp [h])]

theorem firstOccurrences_append (a : List Variable) (vs ws : List Variable) :
    firstOccurrences a (vs ++ ws) = firstOccurrences a vs ++ firstOccurrences (a ++ vs) ws := by
  induction vs generalizing a with
  | nil => simp [firstOccurrences]
  | cons v vs ih =>
    simp only [List.cons_append, firstOccurrences]
    split
    · rename_i h
      rw [ih, firstOccurrences_congr (a ++ v :: vs) (a ++ vs)]
      intro u
      simp only [List.mem_append, List.mem_cons]
      constructor
      · rintro (h' | rfl | h')
        · exact Or.inl h'
        · exact Or.inl h
        · exact Or.inr h'
      · rintro (h' | h')
        · exact Or.inl h'
        · exact Or.inr (Or.inr h')
    · rw [ih, List.cons_append, List.cons_append, firstOccurrences_congr (v :: (a ++ vs)) (a ++ v :: vs)]
      intro u
      simp only [List.mem_append, List.mem_cons]
      tauto

theorem Grow.known {w0 : SMap F} {s s' : Synth F} {vs : List Variable} (g : Grow w0 s s' vs) (v : Variable) :
    v ∈ s'.known ↔ v ∈ s.known ∨ v ∈ vs := by
  have hfo : ∀ (a vs : List Variable) (v : Variable), v ∈ firstOccurrences a vs ↔ v ∉ a ∧ v ∈ vs := by
    intro a vs
    induction vs generalizing a with
    | nil => simp [firstOccurrences]
    | cons x vs ih =>
      intro v
      simp only [firstOccurrences]
      split
      · rename_i hx
        rw [ih]
        simp only [List.mem_cons]
        constructor
        · rintro ⟨h1, h2⟩
          exact ⟨h1, Or.inr h2⟩
        · rintro ⟨h1, rfl | h2⟩
          · exact absurd hx h1
          · exact ⟨h1, h2⟩
      · rename_i hx
        rw [List.mem_cons, ih]
        simp only [List.mem_cons]
        by_cases hvx : v = x
        · subst hvx
          simp [hx]
        · simp [hvx]
  unfold Synth.known
  rw [g.inputs, g.auxs]
  simp only [List.mem_cons, List.mem_append, List.mem_filter, hfo]
  unfold Synth.known
  simp only [List.mem_cons, List.mem_append]
  generalize (v ∈ s.inputs.map Prod.fst) = A
  generalize (v ∈ s.auxs.map Prod.fst) = B
  cases v.isOutput <;> simp only [Bool.not_true, Bool.not_false, Bool.false_eq_true, and_true, and_false] <;> tauto

theorem Grow.refl {w0 : SMap F} {s : Synth F} (h : SynthInv w0 s) : Grow w0 s s [] :=
  ⟨h, fun _ _ h => h, by simp [firstOccurrences], by simp [firstOccurrences]⟩

theorem Grow.trans {w0 : SMap F} {s s' s'' : Synth F} {vs ws : List Variable} (g : Grow w0 s s' vs) (g' : Grow w0 s' s'' ws) :
    Grow w0 s s'' (vs ++ ws) := by
  have hk := firstOccurrences_congr s'.known (s.known ++ vs) (fun v => by rw [g.known, List.mem_append]) ws
  refine ⟨g'.inv, fun v w h => g'.mono v w (g.mono v w h), ?_, ?_⟩
  · rw [g'.inputs, g.inputs, hk, firstOccurrences_append, List.filter_append, List.append_assoc]
  · rw [g'.auxs, g.auxs, hk, firstOccurrences_append, List.filter_append, List.append_assoc]

theorem symbol_grow {w0 : SMap F} {s : Synth F} (h : SynthInv w0 s) (v : Variable) :
    Grow w0 s (symbol s v).2 [v] ∧ SMap.get (symbol s v).2.symbols v = some (symbol s v).1 := by
  rw [symbol_eq]
  cases hg : SMap.get s.symbols v with
  | some w =>
    have hk : v ∈ s.known := (h.bound v).1 (by rw [hg]; rfl)
    refine ⟨⟨h, fun _ _ h => h, ?_, ?_⟩, hg⟩ <;> simp [firstOccurrences, hk]
  | none =>
    have hk : v ∉ s.known := fun hc => by
      have := (h.bound v).2 hc
      rw [hg] at this
      cases this
    have hne : ∀ u w, SMap.get s.symbols u = some w → u ≠ v := by
      rintro u w hu rfl
      rw [hg] at hu
      cases hu
    simp only [fresh1]
    by_cases ho : v.isOutput
    · simp only [ho, if_true]
      refine ⟨⟨newInput_inv h hk, ?_, ?_, ?_⟩, by simp [newInput]⟩
      · intro u w hu
        simp only [newInput, SMap.get_insert, if_neg (hne u w hu), hu]
      · simp [newInput, allocInput, firstOccurrences, hk, ho]
      · simp [newInput, allocInput, firstOccurrences, hk, ho]
    · simp only [ho, Bool.false_eq_true, if_false]
      refine ⟨⟨newAux_inv h hk, ?_, ?_, ?_⟩, by simp [newAux]⟩
      · intro u w hu
        simp only [newAux, SMap.get_insert, if_neg (hne u w hu), hu]
      · simp [newAux, allocAux, firstOccurrences, hk, ho]
      · simp [newAux, allocAux, firstOccurrences, hk, ho]

theorem combination_grow {w0 : SMap F} (l : LinComb F) {s : Synth F} (h : SynthInv w0 s) :
    Grow w0 s (combination l s).2 (l.map Prod.fst) ∧
      (combination l s).1.map Prod.fst = l.map Prod.snd ∧
      (combination l s).1.map (fun t => some t.2) = l.map fun t => SMap.get (combination l s).2.symbols t.1 := by
  induction l generalizing s with
  | nil => exact ⟨Grow.refl h, rfl, rfl⟩
  | cons t l ih =>
    obtain ⟨k, v⟩ := t
    obtain ⟨g1, e1⟩ := symbol_grow h k
    obtain ⟨g2, e2, e3⟩ := ih g1.inv
    simp only [combination, List.map_cons]
    refine ⟨g1.trans g2, by rw [e2], ?_⟩
    rw [e3, g2.mono k _ e1]

/-- The constraints of a statement, blocks excluded. -/
def topConstraint : Stmt F Z → List (Constraint F)
  | .constraint c => [c]
  | _ => []

section
variable [Field F]

/-- `ρ` gives wires their values. -/
def WireVal (s : Synth F) (inputs auxs : ℕ → F) (ρ : Assignment F) : Prop :=
  ∀ v w, SMap.get s.symbols v = some w → w.val inputs auxs = ρ v

theorem wireVal_combination (syms : SMap Wire) (inputs auxs : ℕ → F) (ρ : Assignment F)
    (hρ : ∀ v w, SMap.get syms v = some w → w.val inputs auxs = ρ v) (l : LinComb F) (ts : List (F × Wire))
    (h1 : ts.map Prod.fst = l.map Prod.snd) (h2 : ts.map (fun t => some t.2) = l.map fun t => SMap.get syms t.1) :
    wireVal inputs auxs ts = l.val ρ := by
  unfold wireVal LinComb.val
  induction l generalizing ts with
  | nil => cases ts <;> simp_all
  | cons t l ih => cases ts with
    | nil => simp at h1
    | cons u ts =>
      simp only [List.map_cons, List.cons.injEq] at h1 h2 ⊢
      rw [List.sum_cons, List.sum_cons, ih ts h1.2 h2.2, h1.1, hρ t.1 u.2 h2.1.symm]

theorem synthStmt_grow {w0 : SMap F} (st : Stmt F Z) {s : Synth F} (h : SynthInv w0 s) :
    Grow w0 s (synthStmt s st) (constraintVars [st]) ∧
      ∃ cs, (synthStmt s st).constraints = s.constraints ++ cs ∧ ∀ inputs auxs ρ, WireVal (synthStmt s st) inputs auxs ρ →
        ((∀ c ∈ cs, WireSat inputs auxs c) ↔ ∀ c ∈ topConstraint st, c.Sat ρ) := by
  have hcon : ∀ (l : LinComb F) (s : Synth F), (combination l s).2.constraints = s.constraints := by
    intro l
    induction l with
    | nil => intro s; rfl
    | cons t l ih =>
      intro s
      simp only [combination]
      rw [ih, symbol_eq]
      cases SMap.get s.symbols t.1 with
      | some w => rfl
      | none => simp only [fresh1, newInput, newAux, allocInput, allocAux]; split <;> rfl
  cases st with
  | constraint c =>
    obtain ⟨g1, a1, b1⟩ := combination_grow c.quad.left h
    obtain ⟨g2, a2, b2⟩ := combination_grow c.quad.right g1.inv
    obtain ⟨g3, a3, b3⟩ := combination_grow c.lin g2.inv
    have g := (g1.trans g2).trans g3
    simp only [synthStmt, constraintVars, List.append_nil]
    refine ⟨⟨⟨g.inv.sorted, g.inv.nodup, g.inv.bound, g.inv.one, g.inv.inp, g.inv.aux, g.inv.rem⟩, g.mono, g.inputs, g.auxs⟩,
      _, by rw [hcon, hcon, hcon], ?_⟩
    intro inputs auxs ρ hρ
    have hρ : ∀ v w, SMap.get (combination c.lin (combination c.quad.right (combination c.quad.left s).2).2).2.symbols v = some w →
      w.val inputs auxs = ρ v := hρ
    simp only [List.mem_singleton, forall_eq, topConstraint, WireSat, Constraint.Sat, QuadComb.val]
    rw [wireVal_combination _ _ _ _ hρ _ _ a3 b3, wireVal_combination _ _ _ _ (fun v w hv => hρ v w (g3.mono v w hv)) _ _ a2 b2,
      wireVal_combination _ _ _ _ (fun v w hv => hρ v w (g3.mono v w (g2.mono v w hv))) _ _ a1 b1]
  | block ss => exact ⟨Grow.refl h, [], by simp [synthStmt], by simp [topConstraint]⟩
  | directive d => exact ⟨Grow.refl h, [], by simp [synthStmt], by simp [topConstraint]⟩
  | log l => exact ⟨Grow.refl h, [], by simp [synthStmt], by simp [topConstraint]⟩

theorem constraintVars_cons_eq (s : Stmt F Z) (ss : List (Stmt F Z)) :
    constraintVars (s :: ss) = constraintVars [s] ++ constraintVars ss := by
  cases s <;> simp [constraintVars]

theorem synthStmts_grow {w0 : SMap F} (ss : List (Stmt F Z)) {s : Synth F} (h : SynthInv w0 s) :
    Grow w0 s (ss.foldl synthStmt s) (constraintVars ss) ∧
      ∃ cs, (ss.foldl synthStmt s).constraints = s.constraints ++ cs ∧
        ∀ inputs auxs ρ, WireVal (ss.foldl synthStmt s) inputs auxs ρ →
          ((∀ c ∈ cs, WireSat inputs auxs c) ↔ ∀ c, Stmt.constraint c ∈ ss → c.Sat ρ) := by
  induction ss generalizing s with
  | nil => exact ⟨Grow.refl h, [], by simp, by simp⟩
  | cons st ss ih =>
    obtain ⟨g1, cs1, e1, s1⟩ := synthStmt_grow st h
    obtain ⟨g2, cs2, e2, s2⟩ := ih g1.inv
    rw [constraintVars_cons_eq]
    refine ⟨g1.trans g2, cs1 ++ cs2, ?_, ?_⟩
    · rw [List.foldl_cons, e2, e1, List.append_assoc]
    · intro inputs auxs ρ hρ
      rw [List.foldl_cons] at hρ
      have i1 := s1 inputs auxs ρ fun v w hv => hρ v w (g2.mono v w hv)
      have i2 := s2 inputs auxs ρ hρ
      simp only [List.mem_append, or_imp, forall_and, List.mem_cons]
      rw [i1, i2]
      cases st <;> simp [topConstraint]

theorem synthArgs_inv {w0 : SMap F} (args : List Parameter) {s : Synth F} (h : SynthInv w0 s)
    (hn : (args.map Parameter.id).Nodup) (hk : ∀ a ∈ args, a.id ∉ s.known) :
    SynthInv w0 (args.foldl synthArg s) ∧ (args.foldl synthArg s).constraints = s.constraints ∧
      (args.foldl synthArg s).inputs.map Prod.fst = s.inputs.map Prod.fst ++ (args.filter fun a => !a.priv).map Parameter.id ∧
      (args.foldl synthArg s).auxs.map Prod.fst = s.auxs.map Prod.fst ++ (args.filter fun a => a.priv).map Parameter.id := by
  induction args generalizing s with
  | nil => exact ⟨h, rfl, by simp, by simp⟩
  | cons a args ih =>
    rw [List.map_cons, List.nodup_cons] at hn
    have ha := hk a List.mem_cons_self
    rw [List.foldl_cons]
    by_cases hp : a.priv
    · have e : synthArg s a = newAux s a.id := by simp [synthArg, hp, newAux, allocAux]
      rw [e]
      obtain ⟨i1, i2, i3, i4⟩ := ih (newAux_inv h ha) hn.2 (by
        intro b hb hc
        have hb' := hk b (List.mem_cons_of_mem _ hb)
        unfold Synth.known at hc hb'
        simp only [newAux, allocAux, List.map_append, List.map_cons, List.map_nil, List.mem_cons, List.mem_append,
          List.not_mem_nil, or_false] at hc hb'
        have : b.id ≠ a.id := fun e => hn.1 (by rw [← e]; exact List.mem_map.2 ⟨b, hb, rfl⟩)
        tauto)
      refine ⟨i1, i2, ?_, ?_⟩
      · rw [i3]
        simp [newAux, allocAux, hp]
      · rw [i4]
        simp [newAux, allocAux, hp]
    · have e : synthArg s a = newInput s a.id := by simp [synthArg, hp, newInput, allocInput]
      rw [e]
      obtain ⟨i1, i2, i3, i4⟩ := ih (newInput_inv h ha) hn.2 (by
        intro b hb hc
        have hb' := hk b (List.mem_cons_of_mem _ hb)
        unfold Synth.known at hc hb'
        simp only [newInput, allocInput, List.map_append, List.map_cons, List.map_nil, List.mem_cons, List.mem_append,
          List.not_mem_nil, or_false] at hc hb'
        have : b.id ≠ a.id := fun e => hn.1 (by rw [← e]; exact List.mem_map.2 ⟨b, hb, rfl⟩)
        tauto)
      refine ⟨i1, i2, ?_, ?_⟩
      · rw [i3]
        simp [newInput, allocInput, hp]
      · rw [i4]
        simp [newInput, allocInput, hp]

theorem firstOccurrences_filter (q : Variable → Bool) (a vs : List Variable) :
    (firstOccurrences a vs).filter q = firstOccurrences a (vs.filter q) := by
  induction vs generalizing a with
  | nil => rfl
  | cons v vs ih =>
    simp only [firstOccurrences]
    by_cases hq : q v
    · rw [List.filter_cons_of_pos hq]
      simp only [firstOccurrences]
      split
      · exact ih a
      · rw [List.filter_cons_of_pos hq, ih]
    · rw [List.filter_cons_of_neg hq]
      split
      · exact ih a
      · rw [List.filter_cons_of_neg hq, ih]
        have : ∀ (vs a : List Variable), v ∉ vs → firstOccurrences (v :: a) vs = firstOccurrences a vs := by
          intro vs
          induction vs with
          | nil => intro a _; rfl
          | cons u vs ih2 =>
            intro a hu
            rw [List.mem_cons, not_or] at hu
            simp only [firstOccurrences, List.mem_cons, Ne.symm hu.1, false_or]
            split
            · exact ih2 a hu.2
            · rw [firstOccurrences_congr (u :: v :: a) (v :: u :: a) (by intro x; simp only [List.mem_cons]; tauto), ih2 _ hu.2]
        exact this _ a (by simp [hq])

theorem firstOccurrences_seen (a vs : List Variable) (h : ∀ v ∈ vs, v ∉ a) : firstOccurrences a vs = firstOccurrences [] vs := by
  suffices H : ∀ (vs s : List Variable), (∀ v ∈ vs, v ∉ a) → firstOccurrences (s ++ a) vs = firstOccurrences s vs by
    simpa using H vs [] h
  intro vs
  induction vs with
  | nil => intros; rfl
  | cons v vs ih =>
    intro s hs
    have hv := hs v List.mem_cons_self
    have ih' := fun s => ih s fun u hu => hs u (List.mem_cons_of_mem _ hu)
    have ih2 := ih' (v :: s)
    rw [List.cons_append] at ih2
    simp only [firstOccurrences, List.mem_append, hv, or_false, ih' s, ih2]

/-- The circuit: public wires, other wires, and constraints. -/
theorem synthesize_spec (p : Prog F Z) (h : ArgsInternal p) (w : SMap F) (hw : SMap.Sorted w) :
    let s := synthesize p w
    SynthInv w s ∧
      s.inputs.map Prod.fst = p.publicInputs ++ firstOccurrences [] ((constraintVars p.statements).filter Variable.isOutput) ∧
      s.auxs.map Prod.fst = (p.arguments.filter fun a => a.priv).map Parameter.id ++
        firstOccurrences (initialVars p.arguments) ((constraintVars p.statements).filter fun v => !v.isOutput) ∧
      ∀ inputs auxs ρ, WireVal s inputs auxs ρ →
        ((∀ c ∈ s.constraints, WireSat inputs auxs c) ↔ ∀ c, Stmt.constraint c ∈ p.statements → c.Sat ρ) := by
  intro s
  have i0 : SynthInv w (⟨SMap.insert [] Variable.one .one, w, [], [], []⟩ : Synth F) :=
    ⟨hw, by simp, by
      intro v
      simp only [SMap.get_insert, List.map_nil, List.append_nil, List.mem_singleton, SMap.get_nil]
      by_cases e : v = Variable.one <;> simp [e], by simp, by simp, by simp, by simp⟩
  obtain ⟨a1, a2, a3, a4⟩ := synthArgs_inv p.arguments i0 h.1 (by
    intro a ha hc
    simp only [Synth.known, List.map_nil, List.append_nil, List.mem_singleton] at hc
    have := h.2 a ha
    rw [hc] at this
    exact lt_irrefl _ this)
  simp only [List.map_nil, List.nil_append] at a2 a3 a4
  obtain ⟨g, cs, e, hs⟩ := synthStmts_grow p.statements a1
  rw [a2, List.nil_append] at e
  have hkn : ∀ v, v ∈ (p.arguments.foldl synthArg (⟨SMap.insert [] Variable.one .one, w, [], [], []⟩ : Synth F)).known ↔
      v ∈ initialVars p.arguments := by
    intro v
    unfold Synth.known initialVars
    rw [a3, a4]
    simp only [List.mem_cons, List.mem_append, List.mem_map, List.mem_filter]
    constructor
    · rintro (h | ⟨a, ⟨h, -⟩, rfl⟩ | ⟨a, ⟨h, -⟩, rfl⟩)
      · exact Or.inl h
      · exact Or.inr ⟨a, h, rfl⟩
      · exact Or.inr ⟨a, h, rfl⟩
    · rintro (h | ⟨a, h, rfl⟩)
      · exact Or.inl h
      · cases hp : a.priv
        · exact Or.inr (Or.inl ⟨a, ⟨h, by simp [hp]⟩, rfl⟩)
        · exact Or.inr (Or.inr ⟨a, ⟨h, hp⟩, rfl⟩)
  refine ⟨g.inv, ?_, ?_, ?_⟩
  · have := g.inputs
    rw [firstOccurrences_filter, firstOccurrences_congr _ _ hkn, firstOccurrences_seen, a3] at this
    · exact this
    · intro v hv hc
      rw [List.mem_filter] at hv
      have hneg : (v : ℤ) < 0 := by simpa [Variable.isOutput] using hv.2
      unfold initialVars at hc
      rw [List.mem_cons, List.mem_map] at hc
      rcases hc with rfl | ⟨a, ha, rfl⟩
      · exact lt_irrefl _ hneg
      · exact lt_asymm hneg (h.2 a ha)
  · have := g.auxs
    rw [firstOccurrences_filter, firstOccurrences_congr _ _ hkn, a4] at this
    exact this
  · intro inputs auxs ρ hρ
    have : s.constraints = cs := e
    rw [this]
    exact hs inputs auxs ρ hρ

end

end Zok.Export
