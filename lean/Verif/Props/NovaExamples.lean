import Verif.Props.Nova
import Verif.Spec.TestField

/-
Examples for C70: `def main(public field x, private field y) -> field { return x * y; }`.
-/

namespace Zok.Nova

/-- A step with a private argument, which does not mention `~one`. -/
def mulProg : Prog (ZMod 97) Unit where
  arguments := [⟨1, false⟩, ⟨2, true⟩]
  returnCount := 1
  statements := [.constraint ⟨⟨[(1, 1)], [(2, 1)]⟩, [(3, 1)], none⟩, .constraint ⟨⟨[(3, 1)], [(3, 1)]⟩, [(-1, 1)], none⟩]
  solvers := []

theorem mul_args : Export.ArgsInternal mulProg := by
  refine ⟨by decide, ?_⟩
  intro a ha
  simp only [mulProg, List.mem_cons, List.not_mem_nil, or_false] at ha
  rcases ha with rfl | rfl <;> decide

theorem mul_constraints (c : Constraint (ZMod 97)) (hc : Stmt.constraint c ∈ mulProg.statements) :
    c.quad.vars ++ c.lin.vars = [1, 2, 3] ∨ c.quad.vars ++ c.lin.vars = [3, 3, -1] := by
  simp only [mulProg, List.mem_cons, List.not_mem_nil, or_false, Stmt.constraint.injEq] at hc
  rcases hc with rfl | rfl
  · exact Or.inl rfl
  · exact Or.inr rfl

theorem mul_declared : OutputsDeclared mulProg := by
  intro c hc v hv hn
  rcases mul_constraints c hc with h | h <;> rw [h] at hv <;>
    simp only [List.mem_cons, List.not_mem_nil, or_false] at hv
  · rcases hv with rfl | rfl | rfl <;> exact absurd hn (by decide)
  · rcases hv with rfl | rfl | rfl
    · exact absurd hn (by decide)
    · exact absurd hn (by decide)
    · decide

theorem mul_noOne : NoOne mulProg := by
  intro c hc
  rcases mul_constraints c hc with h | h <;> rw [h] <;> decide

theorem mul_binds : BindsReturns mulProg := by
  intro v hv
  constructor
  · rintro ⟨s, hs, h⟩
    simp only [mulProg, List.mem_cons, List.not_mem_nil, or_false] at hs
    rcases hs with rfl | rfl
    · exact mul_declared ⟨⟨[(1, 1)], [(2, 1)]⟩, [(3, 1)], none⟩ (by simp [mulProg]) v h hv
    · exact mul_declared ⟨⟨[(3, 1)], [(3, 1)]⟩, [(-1, 1)], none⟩ (by simp [mulProg]) v h hv
  · intro h
    have h : v ∈ [(-1 : ℤ)] := h
    rw [List.mem_singleton] at h
    subst h
    exact ⟨_, List.mem_cons_of_mem _ (List.mem_singleton.2 rfl), by decide⟩

/-- No solver is used. -/
def noSem : SolverSem (ZMod 97) Unit := ⟨fun _ => (0, 0), fun _ _ => .error "", fun _ _ => []⟩

/-- **C70**: two steps of the example, `2 → (2 * 3)² = 36 → (36 * 1)² = 1296 = 35`. -/
example : ∃ r, prove noSem mulProg [2] none [[3], [1]] = some (some r) ∧ r.state = [35] ∧ r.steps = 2 :=
  ⟨⟨[35], 2⟩, by decide +kernel, rfl, rfl⟩

/-- **C70_prove** on the example. -/
example : Runs noSem mulProg [2] [[3], [1]] [35] :=
  (((C70_prove noSem mulProg rfl mul_args mul_binds [2] ⟨[], 0⟩ [[3], [1]] ⟨[35], 2⟩).1 (by simp)).1 (by decide +kernel)).1

/-- **C70_sound_partial** on the example: the next states that can be proved are the squares. -/
example : ∃ outs s, synthesize mulProg 1 [] = some (outs, s) ∧
    ∀ z', StepAccepts outs s.constraints [2] z' ↔ ∃ t : ZMod 97, z' = [(2 * t) * (2 * t)] := by
  obtain ⟨outs, s, h, -, -⟩ := C70_wires mulProg 1 rfl mul_args mul_declared [] List.Pairwise.nil
  refine ⟨outs, s, h, fun z' => ?_⟩
  rw [C70_sound_partial mulProg rfl mul_args mul_declared mul_noOne (by simp [mulProg]) [] List.Pairwise.nil h [2] z' rfl]
  constructor
  · rintro ⟨priv, ρ, -, h2, h3, h4⟩
    have e1 := top_sat h4 ⟨⟨[(1, 1)], [(2, 1)]⟩, [(3, 1)], none⟩ (by simp [mulProg])
    have e2 := top_sat h4 ⟨⟨[(3, 1)], [(3, 1)]⟩, [(-1, 1)], none⟩ (by simp [mulProg])
    simp only [Constraint.Sat, QuadComb.val, LinComb.val, List.map_cons, List.map_nil, List.sum_cons, List.sum_nil, one_mul,
      add_zero] at e1 e2
    have h2 : [ρ (1 : ℤ), ρ (2 : ℤ)] = 2 :: priv := h2
    have h3 : [ρ (-1 : ℤ)] = z' := h3
    simp only [List.cons.injEq] at h2
    refine ⟨ρ (2 : ℤ), ?_⟩
    rw [← h3, ← e2, ← e1, h2.1]
  · rintro ⟨t, rfl⟩
    refine ⟨[t], fun v => if v = (0 : ℤ) then 1 else if v = (1 : ℤ) then 2 else if v = (2 : ℤ) then t else if v = (3 : ℤ) then
      2 * t else (2 * t) * (2 * t), rfl, rfl, rfl, ?_⟩
    intro st hst
    simp only [mulProg, List.mem_cons, List.not_mem_nil, or_false] at hst
    rcases hst with rfl | rfl <;> refine .constraint ?_ <;> simp [Constraint.Sat, QuadComb.val, LinComb.val]

/-- **C70_honest_prover** on the example. -/
example : ∃ outs s, synthesizeStep noSem mulProg 1 (some [2]) (some [3]) = some (outs, s) ∧ (∀ e ∈ s.auxs, e.2 ≠ none) ∧
    StepAccepts outs s.constraints [2] [36] := by
  obtain ⟨outs, s, h1, h2, h3, h4⟩ := C70_honest_prover noSem mulProg rfl mul_args mul_binds
    (by simp [DirectivesFresh, mulProg]) [2] [3] [36] rfl
    ((output_iff noSem mulProg mul_args mul_binds [2] [3] [36]).1 (by decide +kernel))
  exact ⟨outs, s, h1, h2, _, h3, h4⟩

/-- The circuit of the example. -/
example : ∃ outs s, synthesizeStep noSem mulProg 1 (some [2]) (some [3]) = some (outs, s) ∧
    s.auxs = [(-1, some 36), (2, some 3), (3, some 6)] ∧ outs = [.aux 0] :=
  ⟨_, _, rfl, by decide +kernel, by decide +kernel⟩

end Zok.Nova
