import Verif.Spec.Circuit
import Verif.Spec.TestField

/-
A decision procedure for the satisfaction of flat statements, used by the examples.
-/

namespace Zok
variable {p : ℕ} {Z : Type} [Fact p.Prime]

mutual
/-- Decides `FlatStmt.Sat`. -/
def FlatStmt.satB (ρ : Assignment (ZMod p)) : FlatStmt (ZMod p) Z → Bool
  | .condition lin quad _ => decide (lin.val ρ = quad.val ρ)
  | .definition x e => decide (ρ x = e.val ρ)
  | .directive _ _ _ => true
  | .log _ => true
  | .block ss => FlatStmt.satBL ρ ss
/-- Decides satisfaction of a list. -/
def FlatStmt.satBL (ρ : Assignment (ZMod p)) : List (FlatStmt (ZMod p) Z) → Bool
  | [] => true
  | s :: ss => FlatStmt.satB ρ s && FlatStmt.satBL ρ ss
end

mutual
theorem FlatStmt.satB_sound (ρ : Assignment (ZMod p)) : ∀ s : FlatStmt (ZMod p) Z, FlatStmt.satB ρ s = true → s.Sat ρ
  | .condition _ _ _, h => .condition (by rw [FlatStmt.satB] at h; simpa using h)
  | .definition _ _, h => .definition (by rw [FlatStmt.satB] at h; simpa using h)
  | .directive _ _ _, _ => .directive _ _ _
  | .log _, _ => .log _
  | .block ss, h => .block (FlatStmt.satBL_sound ρ ss (by rwa [FlatStmt.satB] at h))
theorem FlatStmt.satBL_sound (ρ : Assignment (ZMod p)) : ∀ ss : List (FlatStmt (ZMod p) Z),
    FlatStmt.satBL ρ ss = true → ∀ s ∈ ss, s.Sat ρ
  | [], _ => by simp
  | t :: ss, h => by
    rw [FlatStmt.satBL, Bool.and_eq_true] at h
    exact List.forall_mem_cons.2 ⟨FlatStmt.satB_sound ρ t h.1, FlatStmt.satBL_sound ρ ss h.2⟩
end

/-- The assignment given by a table of the variables allocated by the flattener and a table of outputs; `~one` is 1. -/
def tableAssignment (l : List (ZMod p)) (outs : List (ZMod p) := []) : Assignment (ZMod p) := fun v =>
  match v with
    | .ofNat 0 => 1
    | .ofNat (n + 1) => (l[n]?).getD 0
    | .negSucc n => (outs[n]?).getD 0

/-- `ρ` satisfies the circuit built by running `m` in the initial state, without clash, and the result is accepted by
`k`. -/
def runSat {α : Type} (m : FlatM p Z α) (ρ : Assignment (ZMod p)) (k : α → Bool) : Bool :=
  match m (FlState.init p Z) with
  | none => false
  | some (a, st) => !st.clash && FlatStmt.satBL ρ st.out && k a

theorem runSat_spec {α : Type} {m : FlatM p Z α} {ρ : Assignment (ZMod p)} {k : α → Bool} (h : runSat m ρ k = true) :
    ∃ a st, m (FlState.init p Z) = some (a, st) ∧ st.clash = false ∧ SatF ρ st.out ∧ k a = true := by
  unfold runSat at h
  split at h
  · cases h
  · rename_i a st hm
    simp only [Bool.and_eq_true, Bool.not_eq_true'] at h
    exact ⟨a, st, hm, h.1.1, FlatStmt.satBL_sound ρ _ h.1.2, h.2⟩

/-- A state with `n` allocated variables. -/
def startState (p : ℕ) (Z : Type) (n : ℕ) : FlState p Z := { FlState.init p Z with next := n }

/-- `ρ` satisfies the circuit built by `m` starting from `n` allocated variables, without clash, and the result is
accepted by `k`. -/
def runSatFrom {α : Type} (n : ℕ) (m : FlatM p Z α) (ρ : Assignment (ZMod p)) (k : α → Bool) : Bool :=
  match m (startState p Z n) with
  | none => false
  | some (a, st) => !st.clash && FlatStmt.satBL ρ st.out && k a

theorem runSatFrom_spec {α : Type} {n : ℕ} {m : FlatM p Z α} {ρ : Assignment (ZMod p)} {k : α → Bool}
    (h : runSatFrom n m ρ k = true) :
    ∃ a st, m (startState p Z n) = some (a, st) ∧ CacheOk ρ (startState p Z n) ∧ SatF ρ st.out ∧ st.clash = false ∧
      k a = true := by
  unfold runSatFrom at h
  split at h
  · cases h
  · rename_i a st hm
    simp only [Bool.and_eq_true, Bool.not_eq_true'] at h
    exact ⟨a, st, hm, (fun f c h => by cases h), FlatStmt.satBL_sound ρ _ h.1.2, h.1.1, h.2⟩

theorem cacheOk_init (ρ : Assignment (ZMod p)) : CacheOk ρ (FlState.init p Z) := fun f c h => by cases h

end Zok
