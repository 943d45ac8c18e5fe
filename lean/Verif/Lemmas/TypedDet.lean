import Verif.Lemmas.Deterministic
import Verif.Lemmas.TypedVals

/-
Typed functions without bit decompositions of field elements are deterministic.
-/

set_option linter.unusedSectionVars false

namespace Zok.Typed
open Abi
variable {p : ℕ} {Z : Type} [Fact p.Prime] {O O' : Oracle p Z}

theorem ExecT.det {s : TStmt (ZMod p)} (hs : s.OracleFree) {σ σ' : TState p} {r : Except Fault (TState p)} (h : ExecT O σ s (.ok σ'))
    (h' : ExecT O' σ s r) : r = .ok σ' := by
  cases s with
  | ret e =>
    cases h with
    | ret h =>
      cases h' with
      | ret h' => rw [h] at h'; cases h'; rfl
      | retFault h' => rw [h] at h'; cases h'
  | definition a e =>
    cases h with
    | definition h1 h2 =>
      cases h' with
      | definition g1 g2 => rw [h1] at g1; cases g1; rw [h2] at g2; cases g2; rfl
      | rhsFault g1 => rw [h1] at g1; cases g1
      | lhsFault g1 g2 => rw [h1] at g1; cases g1; rw [h2] at g2; cases g2
  | embed a f g args =>
    cases h with
    | embed h1 h2 h3 h4 h5 =>
      cases h' with
      | embed g1 g2 g3 g4 g5 =>
        rw [h1] at g1; cases g1
        rw [h2] at g2; cases g2
        have he := h4.detOracle hs g4
        have := prims_inj _ _ _ g3 h3 (by simpa using he)
        subst this
        rw [h5] at g5; cases g5; rfl
      | argsFault g1 => rw [h1] at g1; cases g1
      | embedFault g1 g2 =>
        rw [h1] at g1; cases g1
        have he := h4.detOracle hs g2
        cases he
      | embedLhsFault g1 g2 g3 g4 g5 =>
        rw [h1] at g1; cases g1
        rw [h2] at g2; cases g2
        have he := h4.detOracle hs g4
        have := prims_inj _ _ _ g3 h3 (by simpa using he)
        subst this
        rw [h5] at g5; cases g5
  | assertion e err =>
    cases h with
    | assertOk h =>
      cases h' with
      | assertOk h' => rfl
      | assertFailed h' => rw [h] at h'; cases h'
      | assertFault h' => rw [h] at h'; cases h'
  | log es =>
    cases h with
    | log h =>
      cases h' with
      | log h' => rfl
      | logFault h' => rw [h] at h'; cases h'

theorem ExecTs.det {ss : List (TStmt (ZMod p))} (hs : ∀ s ∈ ss, s.OracleFree) {σ σ' : TState p} {r : Except Fault (TState p)}
    (h : ExecTs O σ ss (.ok σ')) (h' : ExecTs O' σ ss r) : r = .ok σ' := by
  induction ss generalizing σ with
  | nil => cases h; cases h'; rfl
  | cons s ss ih =>
    cases h with
    | cons h1 h2 =>
      cases h' with
      | fault g1 => have := h1.det (hs s (by simp)) g1; cases this
      | cons g1 g2 =>
        have := h1.det (hs s (by simp)) g1
        cases this
        exact ih (fun s h => hs s (by simp [h])) h2 g2

variable {f : TFun (ZMod p)} {args : List (AVal (ZMod p))} {out out' : AVal (ZMod p)}

theorem ReturnsT.unique (hs : ∀ s ∈ f.body, s.OracleFree) (h : ReturnsT O f args out) (h' : ReturnsT O' f args out') : out' = out := by
  obtain ⟨_, σ, h1, h2⟩ := h
  obtain ⟨_, τ, g1, g2⟩ := h'
  have := h1.det hs g1
  cases this
  rw [h2] at g2
  cases g2
  rfl

theorem ReturnsT.not_faults (hs : ∀ s ∈ f.body, s.OracleFree) (h : ReturnsT O f args out) (e : Fault) : ¬ FaultsT O' f args e := by
  rintro ⟨_, g⟩
  obtain ⟨_, σ, h1, h2⟩ := h
  have := h1.det hs g
  cases this

end Zok.Typed
