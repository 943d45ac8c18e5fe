import Verif.Lemmas.LinComb
import Verif.Spec.TestField

/-
C05-C06: linear combinations (`zokrates_ast/src/ir/expression.rs`).
-/

namespace Zok
variable {F : Type _} [Field F] [DecidableEq F]

/-- **C05**. `reduce` keeps the value under every assignment and the coefficient of every variable; its result has
strictly increasing variables and no zero coefficient. -/
theorem C05_reduce_correct (l : LinComb F) :
    (∀ ρ, l.reduce.val ρ = l.val ρ) ∧
    (∀ x, l.reduce.coeff x = l.coeff x) ∧
    List.Pairwise (fun a b => a.1 < b.1) l.reduce ∧
    (∀ t ∈ l.reduce, t.2 ≠ 0) := by
  obtain ⟨hs, hz, hc⟩ := LinComb.canon_spec l
  refine ⟨fun ρ => LinComb.val_reduce ρ l, hc, hs, ?_⟩
  rintro ⟨x, v⟩ ht
  exact hz x v (SMap.get_of_mem hs ht)

/-- **C05**. The reduced form is a normal form: two combinations have the same reduced form iff they give every variable
the same coefficient, iff they have the same value under every assignment. -/
theorem C05_reduce_normal_form (a b : LinComb F) :
    (a.reduce = b.reduce ↔ ∀ x, a.coeff x = b.coeff x) ∧
    (a.reduce = b.reduce ↔ ∀ ρ, a.val ρ = b.val ρ) :=
  ⟨LinComb.reduce_eq_iff a b, LinComb.reduce_eq_iff_val a b⟩

/-- **C05**. Reducing twice is reducing once. -/
theorem C05_reduce_idempotent (l : LinComb F) : l.reduce.reduce = l.reduce :=
  (LinComb.reduce_eq_iff_val _ _).2 fun ρ => LinComb.val_reduce ρ l

/-- Non-vacuity: cancellation, zero coefficients and sorting all happen. -/
example : LinComb.reduce (F := ZMod 7) [(3, 1), (1, 2), (3, 6), (2, 0), (1, 1)] = [(1, 3)] := by decide
example : LinComb.reduce (F := ZMod 7) [(3, 1), (1, 2)] = LinComb.reduce [(1, 1), (3, 1), (1, 1)] := by decide

/-- **C06**. The algebra on combinations denotes the field operations. -/
theorem C06_algebra (a b : LinComb F) (k : F) (ρ : Assignment F) :
    (a.add b).val ρ = a.val ρ + b.val ρ ∧
    (a.sub b).val ρ = a.val ρ - b.val ρ ∧
    (a.smul k).val ρ = k * a.val ρ ∧
    (k ≠ 0 → ∃ l, a.div k = some l ∧ l.val ρ = a.val ρ / k) ∧
    (k = 0 → a.div k = none) := by
  refine ⟨LinComb.val_add ρ a b, LinComb.val_sub ρ a b, ?_, ?_, ?_⟩
  · rw [LinComb.val_smul, mul_comm]
  · intro hk
    have : a.div k = some (a.smul k⁻¹) := by simp [LinComb.div, hk]
    exact ⟨_, this, (LinComb.val_div ρ this).2⟩
  · intro hk; simp [LinComb.div, hk]

/-- **C06**. When a shape test succeeds its result denotes the input, under every assignment with `~one = 1`. -/
theorem C06_shape_tests_sound (ρ : Assignment F) (h1 : ρ Variable.one = 1) :
    (∀ (l : LinComb F) k, l.tryConstant = some k → l.val ρ = k) ∧
    (∀ (l : LinComb F) v k, l.trySummand = some (v, k) → l.val ρ = k * ρ v) ∧
    (∀ (q : QuadComb F) l, q.tryLinear = some l → l.val ρ = q.left.val ρ * q.right.val ρ) :=
  ⟨fun _ _ h => LinComb.val_of_tryConstant h ρ h1, fun _ _ _ h => LinComb.val_of_trySummand h ρ,
   fun _ _ h => QuadComb.val_tryLinear h ρ h1⟩

/-- **C06**. The tests fail only on combinations that are syntactically not of the tested shape. -/
theorem C06_shape_tests_complete :
    (∀ l : LinComb F, (∀ t ∈ l, t.1 = Variable.one) → l.tryConstant.isSome) ∧
    (∀ (l : LinComb F) v, l ≠ [] → (∀ t ∈ l, t.1 = v) → l.trySummand.isSome) := by
  constructor
  · intro l h
    unfold LinComb.tryConstant
    split
    · rfl
    · rename_i first c tl
      have hf : first = Variable.one := h (first, c) (by simp)
      rw [if_neg (by simpa using hf), if_pos]
      · rfl
      · simp only [List.all_eq_true, decide_eq_true_eq]
        intro t ht; rw [h t ht, hf]
  · intro l v hn h
    unfold LinComb.trySummand
    split
    · exact absurd rfl hn
    · rename_i first c tl
      have hf : first = v := h (first, c) (by simp)
      rw [if_pos]
      · rfl
      · simp only [List.all_eq_true, decide_eq_true_eq]
        intro t ht; rw [h t ht, hf]

example : LinComb.tryConstant (F := ZMod 7) [(0, 3), (0, 5)] = some 1 := by decide
example : LinComb.trySummand (F := ZMod 7) [(4, 3), (4, 4)] = some (4, 0) := by decide
example : QuadComb.tryLinear (F := ZMod 7) ⟨[(0, 3)], [(1, 2), (2, 1)]⟩ = some [(1, 6), (2, 3)] := by decide

end Zok
