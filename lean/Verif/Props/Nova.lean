import Verif.Lemmas.Nova
import Verif.Props.EndToEnd

/-
C70: the step circuit of the Nova backend.
-/

namespace Zok.Nova

section
variable {F Z : Type _} [Field F]

/-- **C70**. A program is accepted as a step iff it has as many public arguments as outputs. -/
theorem C70_accepted (P : Prog F Z) : accepts P = true ↔ (P.arguments.filter fun a => !a.priv).length = P.returnCount :=
  accepts_iff P

/-- **C70**. The circuit is the same for the public parameters (no witness) and for each step, whatever its witness. -/
theorem C70_same_circuit (P : Prog F Z) (n : ℕ) (w w' : SMap F) :
    (synthesize P n w).map (fun r => (r.1, r.2.auxs.map Prod.fst, r.2.constraints)) =
      (synthesize P n w').map (fun r => (r.1, r.2.auxs.map Prod.fst, r.2.constraints)) := by
  unfold synthesize
  by_cases h : accepts P = true
  · have h0 : Same (⟨bindState P.arguments 0 n [], w, [], []⟩ : NSynth F) ⟨bindState P.arguments 0 n [], w', [], []⟩ :=
      ⟨rfl, rfl, rfl⟩
    obtain ⟨h1, h2⟩ := allocOutputs_same P.returns h0
    rw [if_pos h, if_pos h]
    dsimp only
    rcases synthStmts_same P.statements h2 with ⟨h3, h4⟩ | ⟨s, t, h3, h4, h5⟩
    · rw [h3, h4]
    · rw [h3, h4, h1]
      simp [h5.2.1, h5.2.2]
  · rw [if_neg h, if_neg h]

/-- **C70**. No panic, and no value of the witness is given to the wire of another variable: if a program is accepted and its
constraints mention no output but its own, the circuit is synthesized for every witness; no variable has two wires, none of them
is a variable of the state, and the value of each is the one in the witness. -/
theorem C70_wires (P : Prog F Z) (n : ℕ) (acc : accepts P = true) (args : Export.ArgsInternal P) (decl : OutputsDeclared P)
    (w : SMap F) (hw : SMap.Sorted w) :
    ∃ outs s, synthesize P n w = some (outs, s) ∧
      ((P.arguments.take n).map Parameter.id ++ s.auxs.map Prod.fst).Nodup ∧ ∀ e ∈ s.auxs, e.2 = SMap.get w e.1 := by
  obtain ⟨outs, s, h, inv, -, -⟩ := synthesize_spec P n acc args decl w hw
  refine ⟨outs, s, h, inv.nodup, fun e he => ?_⟩
  obtain ⟨i, hi⟩ := List.getElem?_of_mem he
  exact (inv.aux i e hi).2

/-- **C70**. What a prover can prove of one step, exactly: the constraints of the program hold for some assignment whose first
arguments are the state and whose outputs are the next state. Nothing else is required of the assignment: neither that the
arguments of the state are the public ones, nor that `~one` is 1. -/
theorem C70_step (P : Prog F Z) (acc : accepts P = true) (args : Export.ArgsInternal P) (decl : OutputsDeclared P)
    (w : SMap F) (hw : SMap.Sorted w) {outs : List Wire} {s : NSynth F} (h : synthesize P P.returnCount w = some (outs, s))
    (z z' : List F) (hz : z.length = P.returnCount) : StepAccepts outs s.constraints z z' ↔ IsFreeStep P z z' := by
  obtain ⟨outs', s', h', inv, ho, hc⟩ := synthesize_spec P P.returnCount acc args decl w hw
  rw [h] at h'
  cases h'
  have hlen : (stateVars P P.returnCount).length = z.length := by
    have h1 := (accepts_iff P).1 acc
    have h2 := List.length_filter_le (fun a : Parameter => !a.priv) P.arguments
    rw [stateVars, List.length_map, List.length_take, hz]
    omega
  have hsv : stateVars P P.returnCount = (P.arguments.take z.length).map Parameter.id := by rw [hz]; rfl
  constructor
  · rintro ⟨auxs, h1, h2⟩
    let ρ : Assignment F := fun v => ((SMap.get s.symbols v).map (Wire.val z auxs)).getD 0
    have hρ : WVal s z auxs ρ := by
      intro v wire hv
      show _ = ((SMap.get s.symbols v).map (Wire.val z auxs)).getD 0
      rw [hv]
      rfl
    refine ⟨ρ, ?_, ?_, (hc z auxs ρ hρ).1 h1⟩
    · have : (stateVars P P.returnCount).map ρ = z := by
        apply List.ext_getElem (by rw [List.length_map, hlen])
        intro i h3 h4
        rw [List.getElem_map]
        rw [List.length_map] at h3
        have := hρ _ _ (inv.st i _ (List.getElem?_eq_getElem h3))
        rw [← this]
        simp [Wire.val, List.getD_eq_getElem?_getD, List.getElem?_eq_getElem h4]
      rw [hsv, List.map_map] at this
      exact this
    · rw [← outs_val ho hρ, h2]
  · rintro ⟨ρ, h1, h2, h3⟩
    have hρ := wval_of inv z ρ (by rw [hsv, List.map_map]; exact h1)
    exact ⟨auxsOf s ρ, (hc z _ ρ hρ).2 h3, by rw [outs_val ho hρ, h2]⟩

theorem top_sat {P : Prog F Z} {ρ : Assignment F} (h : SatAll ρ P.statements) (c : Constraint F)
    (hc : Stmt.constraint c ∈ P.statements) : c.Sat ρ := by
  have := h _ hc
  cases this
  assumption

/-- **C70** (completeness). Every step of the program can be proved. -/
theorem C70_complete (P : Prog F Z) (acc : accepts P = true) (args : Export.ArgsInternal P) (decl : OutputsDeclared P)
    (w : SMap F) (hw : SMap.Sorted w) {outs : List Wire} {s : NSynth F} (h : synthesize P P.returnCount w = some (outs, s))
    (z z' : List F) (hz : z.length = P.returnCount) (hs : IsStep P z z') : StepAccepts outs s.constraints z z' := by
  rw [C70_step P acc args decl w hw h z z' hz]
  obtain ⟨priv, ρ, -, h2, h3, h4⟩ := hs
  refine ⟨ρ, ?_, h3, top_sat h4⟩
  rw [List.map_take, h2, List.take_left]

/-- **C70** (soundness). If the constraints do not mention `~one` and there are no assembly blocks, only steps of the program can
be proved. That the constraints do not mention `~one` is missing in the claim, which is false without it: `C70_one_unbound`. -/
theorem C70_sound_partial (P : Prog F Z) (acc : accepts P = true) (args : Export.ArgsInternal P) (decl : OutputsDeclared P)
    (one : NoOne P) (blocks : ∀ b, Stmt.block b ∉ P.statements)
    (w : SMap F) (hw : SMap.Sorted w) {outs : List Wire} {s : NSynth F} (h : synthesize P P.returnCount w = some (outs, s))
    (z z' : List F) (hz : z.length = P.returnCount) : StepAccepts outs s.constraints z z' ↔ IsStep P z z' := by
  refine ⟨fun ha => ?_, C70_complete P acc args decl w hw h z z' hz⟩
  rw [C70_step P acc args decl w hw h z z' hz] at ha
  obtain ⟨ρ, h1, h2, h3⟩ := ha
  let σ : Assignment F := fun v => if v = Variable.one then 1 else ρ v
  have hσ : ∀ v, v ≠ Variable.one → σ v = ρ v := fun v hv => if_neg hv
  have ha : ∀ a ∈ P.arguments, σ a.id = ρ a.id := fun a ha => hσ _ (by
    have := args.2 a ha
    rintro e
    rw [e] at this
    exact lt_irrefl _ this)
  refine ⟨(P.arguments.drop z.length).map fun a => ρ a.id, σ, if_pos rfl, ?_, ?_, ?_⟩
  · rw [List.map_congr_left ha]
    conv_lhs => rw [← List.take_append_drop z.length P.arguments]
    rw [List.map_append, h1]
  · rw [← h2]
    refine List.map_congr_left fun v hv => hσ v ?_
    rintro rfl
    exact lt_irrefl _ (returns_neg P _ hv)
  · intro st hst
    cases st with
    | block b => exact absurd hst (blocks b)
    | directive d => exact .directive d
    | log l => exact .log l
    | constraint c =>
      refine .constraint ?_
      have hn := one c hst
      have h4 := h3 c hst
      unfold Constraint.Sat at h4 ⊢
      rw [QuadComb.val_congr (σ := ρ) (fun x hx => hσ x (by rintro rfl; exact hn (List.mem_append_left _ hx))),
        LinComb.val_congr (σ := ρ) (fun x hx => hσ x (by rintro rfl; exact hn (List.mem_append_right _ hx))), h4]

/-- **C70** (soundness of a chain of steps), under the conditions of `C70_sound_partial`: if a prover can prove `n` steps which
lead from `z` to `z'`, the program has such steps. -/
theorem C70_chain_partial (P : Prog F Z) (acc : accepts P = true) (args : Export.ArgsInternal P) (decl : OutputsDeclared P)
    (one : NoOne P) (blocks : ∀ b, Stmt.block b ∉ P.statements)
    (w : SMap F) (hw : SMap.Sorted w) {outs : List Wire} {s : NSynth F} (h : synthesize P P.returnCount w = some (outs, s))
    (n : ℕ) (z z' : List F) (hz : z.length = P.returnCount) :
    Chain (StepAccepts outs s.constraints) n z z' ↔ Chain (IsStep P) n z z' := by
  have hlen : ∀ z z', IsStep P z z' → z'.length = P.returnCount := by
    rintro z z' ⟨priv, ρ, -, -, h3, -⟩
    rw [← h3]
    simp [Prog.returns]
  have hiff := fun z z' hz => C70_sound_partial P acc args decl one blocks w hw h z z' hz
  induction n generalizing z with
  | zero =>
    constructor <;> (intro hc; cases hc; exact .zero _)
  | succ n ih =>
    constructor
    · intro hc
      cases hc with
      | succ h1 h2 =>
        have h3 := (hiff _ _ hz).1 h1
        exact .succ h3 ((ih _ (hlen _ _ h3)).1 h2)
    · intro hc
      cases hc with
      | succ h1 h2 => exact .succ ((hiff _ _ hz).2 h1) ((ih _ (hlen _ _ h1)).2 h2)

end

section
variable {p : ℕ} [Fact p.Prime] {Z : Type _} (sem : SolverSem (ZMod p) Z)

/-- `def main(public field x) -> field { return x + 1; }` as it is compiled: `~one * (x + ~one) = ~out_0`. -/
def incProg : Prog (ZMod p) Unit where
  arguments := [⟨1, false⟩]
  returnCount := 1
  statements := [.constraint ⟨⟨[(0, 1)], [(0, 1), (1, 1)]⟩, [(-1, 1)], none⟩]
  solvers := []

/-- **C70**. The step `x + 1` (`incProg`): from the state 0, the only step of the program leads to 1, but a prover can prove, with
one step, every number `t * t`, by giving `~one` the value `t`. -/
theorem C70_one_unbound : ∃ outs s, synthesize (incProg (p := p)) 1 [] = some (outs, s) ∧
    (∀ z', IsStep (incProg (p := p)) [0] z' ↔ z' = [1]) ∧
    (∀ t : ZMod p, StepAccepts outs s.constraints [0] [t * t]) ∧
    ∃ z', StepAccepts outs s.constraints [0] z' ∧ ¬ IsStep (incProg (p := p)) [0] z' := by
  have hin : ∀ z', IsStep (incProg (p := p)) [0] z' ↔ z' = [1] := by
    intro z'
    constructor
    · rintro ⟨priv, ρ, h1, h2, h3, h4⟩
      have h2 : [ρ (1 : ℤ)] = 0 :: priv := h2
      have h3 : [ρ (-1 : ℤ)] = z' := by
        rw [← h3]
        rfl
      have h5 := top_sat h4 _ (List.mem_singleton.2 rfl)
      have h1 : ρ (0 : ℤ) = 1 := h1
      simp [Constraint.Sat, QuadComb.val, LinComb.val, h1] at h5
      rw [← h3, ← h5]
      simp only [List.cons.injEq] at h2
      simp [h2.1]
    · rintro rfl
      refine ⟨[], fun v => if v = (1 : ℤ) then 0 else 1, rfl, rfl, rfl, ?_⟩
      intro st hst
      rw [show (incProg (p := p)).statements = [.constraint ⟨⟨[(0, 1)], [(0, 1), (1, 1)]⟩, [(-1, 1)], none⟩] from rfl,
        List.mem_singleton] at hst
      subst hst
      refine .constraint ?_
      simp [Constraint.Sat, QuadComb.val, LinComb.val]
  have hacc : ∀ t : ZMod p, StepAccepts [.aux 0] [([((1 : ZMod p), .aux 1)], [(1, .aux 1), (1, .state 0)], [(1, .aux 0)])] [0]
      [t * t] := by
    intro t
    refine ⟨fun k => if k = 0 then t * t else t, ?_, by simp [Wire.val]⟩
    simp [wireVal, Wire.val]
  refine ⟨[.aux 0], _, rfl, hin, hacc, [0 * 0], hacc 0, ?_⟩
  rw [hin]
  simp

/-- `def main(private field a, public field b) -> field { return b; }`: `~out_0 = b`. -/
def swapProg : Prog (ZMod p) Unit where
  arguments := [⟨1, true⟩, ⟨2, false⟩]
  returnCount := 1
  statements := [.constraint ⟨⟨[(2, 1)], [(2, 1)]⟩, [(-1, 1)], none⟩]
  solvers := []

/-- **C70**. The arguments of the state are the first ones, even if they are private: with `main(private a, public b)`, which is
accepted, the state becomes `a`, and `b` is left to the prover. -/
theorem C70_positional : accepts (swapProg (p := p)) = true ∧ ∃ outs s, synthesize (swapProg (p := p)) 1 [] = some (outs, s) ∧
    ∀ x t : ZMod p, StepAccepts outs s.constraints [x] [t * t] := by
  have hacc : ∀ x t : ZMod p, StepAccepts [.aux 0] [([((1 : ZMod p), .aux 1)], [(1, .aux 1)], [(1, .aux 0)])] [x] [t * t] := by
    intro x t
    refine ⟨fun k => if k = 0 then t * t else t, ?_, by simp [Wire.val]⟩
    simp [wireVal, Wire.val]
  exact ⟨rfl, [.aux 0], _, rfl, hacc⟩

/-- **C70**. Generating the public parameters of a step without state (no outputs, no public arguments) panics as soon as it has
private arguments. -/
theorem C70_no_state_panics (P : Prog (ZMod p) Z) (h : P.arguments ≠ []) : synthesizeStep sem P 0 none none = none := by
  have : P.arguments.length ≠ 0 := by simpa using h
  simp [synthesizeStep, execute, this]

/-- The outputs a program binds are exactly its own. -/
def BindsReturns (P : Prog (ZMod p) Z) : Prop :=
  ∀ v : Variable, (v : ℤ) < 0 → ((∃ s ∈ P.statements, v ∈ s.vars) ↔ v ∈ P.returns)

theorem BindsReturns.declared {P : Prog (ZMod p) Z} (b : BindsReturns P) : OutputsDeclared P :=
  fun c hc v hv hn => (b v hn).1 ⟨_, hc, hv⟩

/-- **C70** (honest prover). If executing the program on the state and the private arguments returns the next state, the step is
synthesized with a value for every variable, these values satisfy the circuit, and those of the outputs are the next state. -/
theorem C70_honest_prover (P : Prog (ZMod p) Z) (acc : accepts P = true) (args : Export.ArgsInternal P) (b : BindsReturns P)
    (fresh : DirectivesFresh (initialVars P.arguments) P.statements) (z priv z' : List (ZMod p)) (hz : z.length = P.returnCount)
    (h : ExecutesTo sem P (z ++ priv) z') :
    ∃ outs s, synthesizeStep sem P P.returnCount (some z) (some priv) = some (outs, s) ∧ (∀ e ∈ s.auxs, e.2 ≠ none) ∧
      (∀ c ∈ s.constraints, wireVal z (fun k => ((s.auxs[k]?).bind Prod.snd).getD 0) c.1 *
        wireVal z (fun k => ((s.auxs[k]?).bind Prod.snd).getD 0) c.2.1 =
        wireVal z (fun k => ((s.auxs[k]?).bind Prod.snd).getD 0) c.2.2) ∧
      outs.map (Wire.val z (fun k => ((s.auxs[k]?).bind Prod.snd).getD 0)) = z' := by
  obtain ⟨w, hw, hr⟩ := h
  have hdist : ArgsDistinct P.arguments := by
    refine List.nodup_cons.2 ⟨fun hc => ?_, args.1⟩
    obtain ⟨a, ha, e⟩ := List.mem_map.1 hc
    have := args.2 a ha
    rw [e] at this
    exact lt_irrefl _ this
  obtain ⟨h1, h2, h3⟩ := C01_witness_satisfies sem false _ _ _ _ w hdist fresh hw
  have hsorted : SMap.Sorted w := by
    unfold execute at hw
    split at hw
    · cases hw
    · rename_i hlen
      have hlen : P.arguments.length = (z ++ priv).length := Decidable.byContradiction hlen
      exact (execStmts_ok sem false P.solvers hw (initWitness_sorted _ _) (initWitness_keys _ _ hlen)).1
  have hdom := C03_witness_domain sem false _ _ _ _ w hw
  obtain ⟨outs, s, hs, inv, ho, hc⟩ := synthesize_spec P P.returnCount acc args b.declared w hsorted
  have haux : ∀ e ∈ s.auxs, e.2 = SMap.get w e.1 := fun e he => by
    obtain ⟨i, hi⟩ := List.getElem?_of_mem he
    exact (inv.aux i e hi).2
  have hstep : synthesizeStep sem P P.returnCount (some z) (some priv) = some (outs, s) := by
    unfold synthesizeStep
    by_cases h0 : P.returnCount = 0
    · have : z = [] := List.length_eq_zero_iff.1 (hz.trans h0)
      subst this
      simp only [if_pos h0, Option.getD_some]
      rw [hw]
      exact hs
    · simp only [if_neg h0, Option.getD_some]
      rw [hw]
      exact hs
  have heq : (fun k => ((s.auxs[k]?).bind Prod.snd).getD 0) = auxsOf s (assignmentOf w) := by
    funext k
    unfold auxsOf
    cases hk : s.auxs[k]? with
    | none => rfl
    | some e => simp [haux e (List.mem_of_getElem? hk), assignmentOf]
  have hzval : (stateVars P P.returnCount).map (assignmentOf w) = z := by
    have h5 : (P.arguments.map fun a => SMap.get w a.id).take z.length = z.map some := by
      rw [h2, List.map_append, List.take_append_of_le_length (by simp), List.take_of_length_le (by simp)]
    rw [← List.map_take, hz] at h5
    have h6 := congrArg (List.map fun o : Option (ZMod p) => o.getD 0) h5
    rw [List.map_map, List.map_map] at h6
    rw [stateVars, List.map_map]
    refine Eq.trans h6 ?_
    conv_rhs => rw [← List.map_id z]
    exact List.map_congr_left fun _ _ => rfl
  have hρ := wval_of inv z (assignmentOf w) hzval
  refine ⟨outs, s, hstep, ?_, ?_, ?_⟩
  · intro e he hn
    rw [haux e he] at hn
    have hmem : e.1 ∈ SMap.keys w := by
      rw [hdom]
      right; right
      unfold synthesize at hs
      rw [if_pos acc] at hs
      dsimp only at hs
      split at hs
      · cases hs
      · rename_i s' hs'
        cases hs
        rcases synthStmts_auxs hs' e he with h | ⟨c, hc, hv⟩
        · rcases allocOutputs_auxs _ _ e h with h | h
          · cases h
          · exact (b _ (returns_neg P _ h)).2 h
        · exact ⟨_, hc, hv⟩
    rw [← SMap.get_isSome_iff, hn] at hmem
    cases hmem
  · rw [heq]
    exact (hc z _ _ hρ).2 (top_sat h3)
  · rw [heq, outs_val ho hρ]
    have := congrArg (List.map fun o : Option (ZMod p) => o.getD 0) hr
    rw [List.map_map, List.map_map] at this
    refine Eq.trans this ?_
    conv_rhs => rw [← List.map_id z']
    exact List.map_congr_left fun _ _ => rfl

theorem output_iff (P : Prog (ZMod p) Z) (args : Export.ArgsInternal P) (b : BindsReturns P) (z priv z' : List (ZMod p)) :
    output sem P z priv = some z' ↔ ExecutesTo sem P (z ++ priv) z' := by
  have key : ∀ w, execute sem false (z ++ priv) P.statements P.arguments P.solvers = .ok w →
      (Export.returnValues w = some z' ↔ P.returns.map (SMap.get w) = z'.map some) := by
    intro w hw
    have hdom := C03_witness_domain sem false _ _ _ _ w hw
    have hs : SMap.Sorted w := by
      unfold execute at hw
      split at hw
      · cases hw
      · rename_i hlen
        have hlen : P.arguments.length = (z ++ priv).length := Decidable.byContradiction hlen
        exact (execStmts_ok sem false P.solvers hw (initWitness_sorted _ _) (initWitness_keys _ _ hlen)).1
    have hn : (w.filter fun kv => Variable.isOutput kv.1).length = P.returnCount := by
      have e1 : ((w.filter fun kv => Variable.isOutput kv.1).map Prod.fst).Nodup :=
        List.Nodup.sublist (List.Sublist.map _ List.filter_sublist) (Export.nodup_keys hs)
      have e2 : ((w.filter fun kv => Variable.isOutput kv.1).map Prod.fst).Perm P.returns := by
        rw [List.perm_ext_iff_of_nodup e1 (returns_nodup P)]
        have houts : ∀ v : Variable, (v : ℤ) < 0 → (v ∈ SMap.keys w ↔ v ∈ P.returns) := by
          intro v hv
          rw [hdom, ← b v hv]
          constructor
          · rintro (rfl | h | h)
            · exact absurd hv (lt_irrefl _)
            · obtain ⟨a, ha, rfl⟩ := List.mem_map.1 h
              exact absurd hv (lt_asymm (args.2 a ha))
            · exact h
          · exact fun h => Or.inr (Or.inr h)
        intro v
        rw [List.mem_map]
        constructor
        · rintro ⟨kv, hkv, rfl⟩
          obtain ⟨a, b⟩ := List.mem_filter.1 hkv
          exact (houts _ (by simpa [Variable.isOutput] using b)).1 (List.mem_map.2 ⟨kv, a, rfl⟩)
        · intro hv
          have hneg := returns_neg P v hv
          obtain ⟨kv, a, rfl⟩ := List.mem_map.1 ((houts v hneg).2 hv)
          exact ⟨kv, List.mem_filter.2 ⟨a, by simpa [Variable.isOutput] using hneg⟩, rfl⟩
      have := e2.length_eq
      simpa [Prog.returns] using this
    unfold Export.returnValues
    simp only [hn]
    have gen : ∀ (l : List ℕ) (r : List (ZMod p)),
        l.mapM (fun i => SMap.get w (Variable.pub i)) = some r ↔ l.map (fun i => SMap.get w (Variable.pub i)) = r.map some := by
      intro l
      induction l with
      | nil => intro r; cases r <;> simp
      | cons i l ih =>
        intro r
        rw [List.mapM_cons]
        cases hi : SMap.get w (Variable.pub i) with
        | none => cases r <;> simp [hi]
        | some x =>
          cases r with
          | nil =>
            cases hl : l.mapM (fun i => SMap.get w (Variable.pub i)) <;> simp
          | cons y r =>
            simp only [List.map_cons, List.cons.injEq, hi, Option.some.injEq, ← ih]
            cases hl : l.mapM (fun i => SMap.get w (Variable.pub i)) <;> simp
    rw [gen, Prog.returns, List.map_map]
    rfl
  unfold output ExecutesTo
  cases e : execute sem false (z ++ priv) P.statements P.arguments P.solvers with
  | error _ => simp
  | ok w => simp only [key w e, Except.ok.injEq, exists_eq_left']

/-- **C70** (proving). Starting from the initial state, `prove` succeeds iff the program runs through the steps with these private
arguments; it then has proved the final state of this run, with as many steps as it was given. Starting from an earlier proof, the
run starts from the state of that proof, and its steps are added. -/
theorem C70_prove (P : Prog (ZMod p) Z) (acc : accepts P = true) (args : Export.ArgsInternal P) (b : BindsReturns P)
    (z0 : List (ZMod p)) (r0 : Recursive (ZMod p)) (privs : List (List (ZMod p))) (r : Recursive (ZMod p)) :
    (privs ≠ [] → (prove sem P z0 none privs = some (some r) ↔ Runs sem P z0 privs r.state ∧ r.steps = privs.length)) ∧
    (prove sem P z0 (some r0) privs = some (some r) ↔ Runs sem P r0.state privs r.state ∧ r.steps = r0.steps + privs.length) := by
  have hsome : ∀ (privs : List (List (ZMod p))) (r0 : Recursive (ZMod p)),
      prove sem P z0 (some r0) privs = some (some r) ↔ Runs sem P r0.state privs r.state ∧ r.steps = r0.steps + privs.length := by
    intro privs
    induction privs with
    | nil =>
      intro r0
      unfold prove
      rw [if_pos acc]
      simp only [List.foldlM_nil, Option.pure_def, Option.some.injEq, List.length_nil, Nat.add_zero]
      constructor
      · rintro rfl
        exact ⟨.nil _, rfl⟩
      · rintro ⟨h1, h2⟩
        cases r
        cases r0
        simp only at h1 h2
        cases h1
        rw [h2]
    | cons priv privs ih =>
      intro r0
      have ih' := fun r0 => ih r0
      unfold prove at ih' ⊢
      simp only [if_pos acc] at ih' ⊢
      rw [List.foldlM_cons]
      simp only [Option.map_some, Option.getD_some]
      cases e : output sem P r0.state priv with
      | none =>
        simp only [Option.bind_eq_bind, Option.bind_none, List.length_cons, reduceCtorEq, false_iff]
        rintro ⟨h, -⟩
        cases h with
        | cons h hs =>
          rw [← output_iff sem P args b, e] at h
          cases h
      | some z1 =>
        simp only [Option.bind_eq_bind, Option.bind_some]
        rw [ih']
        simp only [List.length_cons]
        constructor
        · rintro ⟨h1, h2⟩
          exact ⟨.cons ((output_iff sem P args b _ _ _).1 e) h1, by omega⟩
        · rintro ⟨h1, h2⟩
          cases h1 with
          | cons h hs =>
            rw [← output_iff sem P args b, e] at h
            cases h
            exact ⟨hs, by omega⟩
  refine ⟨fun hne => ?_, hsome privs r0⟩
  cases privs with
  | nil => exact absurd rfl hne
  | cons priv privs =>
    have : prove sem P z0 none (priv :: privs) = prove sem P z0 (some ⟨z0, 0⟩) (priv :: privs) := by
      unfold prove
      simp only [if_pos acc, List.foldlM_cons]
      rfl
    rw [this]
    have := hsome (priv :: privs) ⟨z0, 0⟩
    simpa using this

end

end Zok.Nova
