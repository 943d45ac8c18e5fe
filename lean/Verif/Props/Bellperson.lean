import Verif.Model.Bellperson
import Verif.Spec.Nova
import Verif.Lemmas.Nova
import Verif.Props.ExportExamples

/-
C36 for the backend bellperson.
-/

namespace Zok.Export
variable {F Z : Type _}

theorem symbolB_eq (s : Synth F) (v : Variable) (h : (v : ℤ) < 0 → SMap.get s.symbols v ≠ none) :
    symbolB s v = some (symbol s v) := by
  unfold symbolB symbol
  cases e : SMap.get s.symbols v with
  | some w => rfl
  | none =>
    have : v.isOutput = false := by
      by_contra hc
      rw [Bool.not_eq_false] at hc
      exact h (by simpa [Variable.isOutput] using hc) e
    simp [this]

/-- Every output in `vs` has a symbol. -/
def OutsB (s : Synth F) (vs : List Variable) : Prop := ∀ v ∈ vs, (v : ℤ) < 0 → SMap.get s.symbols v ≠ none

theorem OutsB.mono {s s' : Synth F} {vs : List Variable} (h : OutsB s vs)
    (m : ∀ v w, SMap.get s.symbols v = some w → SMap.get s'.symbols v = some w) : OutsB s' vs := by
  intro v hv ho
  have := h v hv ho
  cases e : SMap.get s.symbols v with
  | none => exact absurd e this
  | some w =>
    rw [m v w e]
    simp

theorem combinationB_eq {w0 : SMap F} (l : LinComb F) {s : Synth F} (h : SynthInv w0 s) (ho : OutsB s (l.map Prod.fst)) :
    combinationB l s = some (combination l s) := by
  induction l generalizing s with
  | nil => rfl
  | cons t l ih =>
    obtain ⟨k, v⟩ := t
    have hg := (symbol_grow h k).1
    unfold combinationB
    rw [symbolB_eq s k (ho k (by simp))]
    dsimp only
    rw [ih hg.inv (OutsB.mono (fun u hu => ho u (List.mem_cons_of_mem _ hu)) hg.mono)]
    rfl

theorem synthStmtsB_eq [Field F] {w0 : SMap F} (ss : List (Stmt F Z)) {s : Synth F} (h : SynthInv w0 s)
    (ho : ∀ c, Stmt.constraint c ∈ ss → OutsB s (c.quad.vars ++ c.lin.vars)) :
    synthStmtsB s ss = some (ss.foldl synthStmt s) := by
  induction ss generalizing s with
  | nil => rfl
  | cons st ss ih =>
    have hg := (synthStmt_grow st h).1
    have h1 : synthStmtB s st = some (synthStmt s st) := by
      cases st with
      | constraint c =>
        have ho := ho c (by simp)
        simp only [QuadComb.vars, LinComb.vars] at ho
        have g1 := (combination_grow c.quad.left h).1
        have g2 := (combination_grow c.quad.right g1.inv).1
        have e1 := combinationB_eq c.quad.left h fun v hv => ho v (by simp [hv])
        have e2 := combinationB_eq c.quad.right g1.inv (OutsB.mono (fun v hv => ho v (by simp [hv])) g1.mono)
        have e3 := combinationB_eq c.lin g2.inv (OutsB.mono (OutsB.mono (fun v hv => ho v (by simp [hv])) g1.mono) g2.mono)
        simp only [synthStmtB, e1, e2, e3]
        rfl
      | block _ => rfl
      | directive _ => rfl
      | log _ => rfl
    unfold synthStmtsB
    rw [h1]
    exact ih hg.inv fun c hc => OutsB.mono (ho c (List.mem_cons_of_mem _ hc)) hg.mono

theorem synthReturns_inv {w0 : SMap F} (vs : List Variable) {s : Synth F} (h : SynthInv w0 s) (nd : vs.Nodup)
    (hv : ∀ v ∈ vs, v ∉ s.known) :
    SynthInv w0 (vs.foldl synthReturn s) ∧ (vs.foldl synthReturn s).constraints = s.constraints ∧
      (vs.foldl synthReturn s).inputs.map Prod.fst = s.inputs.map Prod.fst ++ vs ∧
      (vs.foldl synthReturn s).auxs.map Prod.fst = s.auxs.map Prod.fst := by
  induction vs generalizing s with
  | nil => exact ⟨h, rfl, by simp, rfl⟩
  | cons v vs ih =>
    rw [List.nodup_cons] at nd
    have e : synthReturn s v = newInput s v := by simp [synthReturn, newInput, allocInput]
    obtain ⟨i1, c1, a1, b1⟩ := ih (newInput_inv h (hv v (by simp))) nd.2 (by
      intro u hu hc
      have hne : u ≠ v := by
        rintro rfl
        exact nd.1 hu
      apply hv u (List.mem_cons_of_mem _ hu)
      simp only [Synth.known, newInput, allocInput, List.map_append, List.map_cons, List.map_nil, List.mem_cons,
        List.mem_append, List.not_mem_nil, or_false] at hc ⊢
      tauto)
    rw [List.foldl_cons, e]
    refine ⟨i1, by rw [c1]; rfl, ?_, by rw [b1]; rfl⟩
    rw [a1]
    simp [newInput, allocInput]

theorem firstOccurrences_known (a vs : List Variable) (f : Variable → Bool) (h : ∀ v ∈ vs, f v = true → v ∈ a) :
    (firstOccurrences a vs).filter f = [] := by
  induction vs generalizing a with
  | nil => rfl
  | cons v vs ih =>
    simp only [firstOccurrences]
    split
    · exact ih a fun u hu => h u (List.mem_cons_of_mem _ hu)
    · rename_i hv
      have : f v = false := by
        by_contra hc
        rw [Bool.not_eq_false] at hc
        exact hv (h v (by simp) hc)
      rw [List.filter_cons_of_neg (by simp [this])]
      exact ih _ fun u hu hf => List.mem_cons_of_mem _ (h u (List.mem_cons_of_mem _ hu) hf)

section
variable [Field F]

theorem constraintVars_mem (ss : List (Stmt F Z)) (v : Variable) (h : v ∈ constraintVars ss) :
    ∃ c, Stmt.constraint c ∈ ss ∧ v ∈ c.quad.vars ++ c.lin.vars := by
  induction ss with
  | nil => cases h
  | cons s ss ih =>
    rw [constraintVars_cons_eq, List.mem_append] at h
    rcases h with h | h
    · cases s with
      | constraint c =>
        simp only [constraintVars, List.append_nil] at h
        exact ⟨c, by simp, h⟩
      | _ => simp [constraintVars] at h
    · obtain ⟨c, h1, h2⟩ := ih h
      exact ⟨c, List.mem_cons_of_mem _ h1, h2⟩

/-- **C36** (bellperson). If the constraints mention no output but those of the program, the circuit is synthesized for every
program and witness: the public wires are the public arguments in order, then the outputs in order, whatever the constraints; no
variable has two wires; each wire gets the witness value of its variable; the constraints of the circuit hold for the values of an
assignment with `~one = 1` iff the (top level) constraints of the program do; and all values of the wires come from such an
assignment. -/
theorem C36_bellperson (p : Prog F Z) (args : ArgsInternal p) (decl : Nova.OutputsDeclared p) (w : SMap F) (hw : SMap.Sorted w) :
    ∃ s, synthesizeB p w = some s ∧
    s.inputs.map Prod.fst = p.publicInputs ++ p.returns ∧
    (Variable.one :: (s.inputs.map Prod.fst ++ s.auxs.map Prod.fst)).Nodup ∧
    (∀ e ∈ s.inputs ++ s.auxs, e.2 = SMap.get w e.1) ∧
    (∀ ρ : Assignment F, ρ Variable.one = 1 →
      ((∀ c ∈ s.constraints, WireSat (fun i => (s.inputs[i]?).elim 0 fun e => ρ e.1) (fun i => (s.auxs[i]?).elim 0 fun e => ρ e.1) c) ↔
        ∀ c, Stmt.constraint c ∈ p.statements → c.Sat ρ)) ∧
    ∀ inputs auxs : ℕ → F, ∃ ρ : Assignment F, ρ Variable.one = 1 ∧
      (∀ i e, s.inputs[i]? = some e → ρ e.1 = inputs i) ∧ ∀ i e, s.auxs[i]? = some e → ρ e.1 = auxs i := by
  have i0 : SynthInv w (⟨SMap.insert [] Variable.one .one, w, [], [], []⟩ : Synth F) :=
    ⟨hw, by simp, by
      intro v
      simp only [SMap.get_insert, List.map_nil, List.append_nil, List.mem_singleton, SMap.get_nil]
      by_cases e : v = Variable.one <;> simp [e], by simp, by simp, by simp, by simp⟩
  obtain ⟨a1, a2, a3, a4⟩ := synthArgs_inv p.arguments i0 args.1 (by
    intro a ha hc
    simp only [Synth.known, List.map_nil, List.append_nil, List.mem_singleton] at hc
    have := args.2 a ha
    rw [hc] at this
    exact lt_irrefl _ this)
  simp only [List.map_nil, List.nil_append] at a2 a3 a4
  obtain ⟨b1, b2, b3, b4⟩ := synthReturns_inv p.returns a1 (Nova.returns_nodup p) (by
    intro v hv hc
    have hneg := Nova.returns_neg p v hv
    unfold Synth.known at hc
    rw [a3, a4, List.mem_cons, List.mem_append] at hc
    rcases hc with rfl | hc | hc
    · exact lt_irrefl _ hneg
    all_goals
      obtain ⟨a, ha, rfl⟩ := List.mem_map.1 hc
      exact lt_asymm hneg (args.2 a (List.mem_filter.1 ha).1))
  generalize hs0 : p.returns.foldl synthReturn
    (p.arguments.foldl synthArg (⟨SMap.insert [] Variable.one .one, w, [], [], []⟩ : Synth F)) = s0 at *
  have hret : ∀ v ∈ p.returns, v ∈ s0.known := fun v hv => by
    unfold Synth.known
    rw [b3]
    simp [hv]
  have hB := synthStmtsB_eq p.statements b1 (fun c hc v hv hn => by
    have h1 := (b1.bound v).2 (hret v (decl c hc v hv hn))
    intro e
    rw [e] at h1
    cases h1)
  obtain ⟨g, cs, e, hs⟩ := synthStmts_grow p.statements b1
  rw [b2, a2, List.nil_append] at e
  have inv := g.inv
  generalize hs1 : p.statements.foldl synthStmt s0 = s at *
  refine ⟨s, by unfold synthesizeB; simp only [hs0]; exact hB, ?_, inv.nodup, ?_, ?_, ?_⟩
  · rw [g.inputs, firstOccurrences_known, List.append_nil, b3, a3]
    · rfl
    · intro v hv ho
      obtain ⟨c, h1, h2⟩ := constraintVars_mem _ _ hv
      exact hret v (decl c h1 v h2 (by simpa [Variable.isOutput] using ho))
  · intro e he
    rcases List.mem_append.1 he with he | he
    · obtain ⟨i, hi⟩ := List.getElem?_of_mem he
      exact (inv.inp i e hi).2
    · obtain ⟨i, hi⟩ := List.getElem?_of_mem he
      exact (inv.aux i e hi).2
  · intro ρ hρ
    rw [e]
    refine hs _ _ ρ fun v wire hv => ?_
    have hb := (inv.bound v).1 (by rw [hv]; rfl)
    rw [List.mem_cons, List.mem_append] at hb
    rcases hb with rfl | hb | hb
    · rw [inv.one] at hv
      cases hv
      exact hρ.symm
    · obtain ⟨e, he, rfl⟩ := List.mem_map.1 hb
      obtain ⟨i, hi⟩ := List.getElem?_of_mem he
      rw [(inv.inp i e hi).1] at hv
      cases hv
      simp only [Wire.val]
      rw [show s.inputs[i]? = some e from hi]
      rfl
    · obtain ⟨e, he, rfl⟩ := List.mem_map.1 hb
      obtain ⟨i, hi⟩ := List.getElem?_of_mem he
      rw [(inv.aux i e hi).1] at hv
      cases hv
      simp only [Wire.val]
      rw [show s.auxs[i]? = some e from hi]
      rfl
  · intro inputs auxs
    refine ⟨fun v => ((SMap.get s.symbols v).map (Wire.val inputs auxs)).getD 0, ?_, ?_, ?_⟩
    · simp only [show SMap.get s.symbols Variable.one = some .one from inv.one]
      rfl
    · intro i e he
      simp only [show SMap.get s.symbols e.1 = some (.input i) from (inv.inp i e he).1]
      rfl
    · intro i e he
      simp only [show SMap.get s.symbols e.1 = some (.aux i) from (inv.aux i e he).1]
      rfl

/-- **C36** (bellperson). If the witness binds exactly the program's outputs, the values that `public_inputs_values` gives to the
verifier are those of the public wires, in the same order, in whatever order the constraints mention the outputs (compare
`C36_public_inputs` and `C36_order_matters`). -/
theorem C36_bellperson_public_inputs (p : Prog F Z) (args : ArgsInternal p) (decl : Nova.OutputsDeclared p) (w : SMap F)
    (hw : SMap.Sorted w) (outs : ∀ v : Variable, (v : ℤ) < 0 → (v ∈ SMap.keys w ↔ v ∈ p.returns))
    (vals : List F) (h : publicInputsValues p w = some vals) :
    ∃ s, synthesizeB p w = some s ∧ s.inputs = (p.publicInputs ++ p.returns).zip (vals.map some) := by
  obtain ⟨s, h0, h1, -, h3, -⟩ := C36_bellperson p args decl w hw
  refine ⟨s, h0, ?_⟩
  have hvals := publicInputsValues_eq p args w hw outs vals h
  rw [hvals, ← h1]
  generalize s.inputs = l at *
  have h3' : ∀ e ∈ l, e.2 = SMap.get w e.1 := fun e he => h3 e (List.mem_append_left _ he)
  clear h1 hvals h3 h h0
  induction l with
  | nil => rfl
  | cons e l ih =>
    simp only [List.map_cons, List.zip_cons_cons]
    rw [← ih fun e he => h3' e (List.mem_cons_of_mem _ he), ← h3' e List.mem_cons_self]

end

/-- The program whose outputs occur in the wrong order for the other backends (`C36_order_matters`). -/
example : (synthesizeB swapProg [(Variable.pub 1, 9), (Variable.pub 0, 6), (Variable.one, 1), (1, 3)]).map Synth.inputs =
    some [(1, some 3), (Variable.pub 0, some 6), (Variable.pub 1, some 9)] ∧
    publicInputsValues swapProg [(Variable.pub 1, 9), (Variable.pub 0, 6), (Variable.one, 1), (1, 3)] = some [3, 6, 9] := by
  decide +kernel

/-- The hypotheses of `C36_bellperson` hold for it. -/
example : ArgsInternal swapProg ∧ Nova.OutputsDeclared swapProg := by
  refine ⟨⟨by decide, ?_⟩, ?_⟩
  · intro a ha
    simp only [swapProg, List.mem_singleton] at ha
    subst ha
    decide
  · intro c hc v hv hn
    simp only [swapProg, List.mem_cons, List.not_mem_nil, or_false, Stmt.constraint.injEq] at hc
    rcases hc with rfl | rfl <;>
      simp only [QuadComb.vars, LinComb.vars, List.map_cons, List.map_nil, List.cons_append, List.nil_append, List.mem_cons,
        List.not_mem_nil, or_false] at hv
    · rcases hv with rfl | rfl | rfl
      · exact absurd hn (by decide)
      · exact absurd hn (by decide)
      · decide
    · rcases hv with rfl | rfl | rfl
      · exact absurd hn (by decide)
      · exact absurd hn (by decide)
      · decide

end Zok.Export
