import Verif.Spec.Sat
import Verif.Lemmas.LinComb
import Verif.Lemmas.Flat
import Verif.Lemmas.Interp

set_option linter.unusedSectionVars false

/- Variables of derived combinations; flat streams. -/

namespace Zok
variable {F : Type _} [Field F] [DecidableEq F] {Z : Type _}

theorem LinComb.vars_eq (l : LinComb F) : LinComb.vars l = l.map Prod.fst := rfl

theorem LinComb.vars_canonStep {acc : SMap F} (t : Variable × F) {x : Variable}
    (h : x ∈ SMap.keys (LinComb.canonStep acc t)) : x = t.1 ∨ x ∈ SMap.keys acc := by
  unfold LinComb.canonStep at h
  split at h
  · split at h
    · split at h
      · exact (SMap.mem_insert_keys ..).1 h
      · exact .inr (SMap.keys_erase_subset _ _ _ h)
    · exact (SMap.mem_insert_keys ..).1 h
  · exact .inr h

theorem LinComb.vars_reduce {l : LinComb F} {x : Variable} (h : x ∈ LinComb.vars (LinComb.reduce l)) :
    x ∈ LinComb.vars l := by
  have aux : ∀ (l : LinComb F) (acc : SMap F), x ∈ SMap.keys (l.foldl LinComb.canonStep acc) →
      x ∈ LinComb.vars l ∨ x ∈ SMap.keys acc := by
    intro l
    induction l with
    | nil => intro acc h; exact .inr h
    | cons t l ih =>
      intro acc h
      rcases ih _ h with h | h
      · exact .inl (by simp only [LinComb.vars_eq] at h ⊢; simp [h])
      · rcases LinComb.vars_canonStep t h with h | h
        · exact .inl (by simp [LinComb.vars_eq, h])
        · exact .inr h
  rcases aux l [] h with h | h
  · exact h
  · simp [SMap.keys] at h

theorem LinComb.vars_smul (l : LinComb F) (k : F) : LinComb.vars (LinComb.smul l k) = LinComb.vars l := by
  unfold LinComb.smul
  split
  · rfl
  · simp only [LinComb.vars_eq, List.map_map]; rfl

theorem LinComb.vars_div {l l' : LinComb F} {k : F} (h : LinComb.div l k = some l') :
    LinComb.vars l' = LinComb.vars l := by
  unfold LinComb.div at h
  split at h
  · cases h
  · cases h; exact LinComb.vars_smul ..

theorem QuadComb.mem_vars {q : QuadComb F} {x : Variable} :
    x ∈ q.vars ↔ x ∈ LinComb.vars q.left ∨ x ∈ LinComb.vars q.right := by
  simp only [QuadComb.vars, List.mem_append]

theorem QuadComb.vars_reduce {q : QuadComb F} {x : Variable} (h : x ∈ q.reduce.vars) : x ∈ q.vars := by
  rw [QuadComb.mem_vars] at h ⊢
  exact h.imp LinComb.vars_reduce LinComb.vars_reduce

theorem QuadComb.vars_tryLinear {q : QuadComb F} {l : LinComb F} (h : q.tryLinear = some l) {x : Variable}
    (hx : x ∈ LinComb.vars l) : x ∈ q.vars := by
  rw [QuadComb.mem_vars]
  unfold QuadComb.tryLinear at h
  split at h
  · cases h; simp [LinComb.vars_eq, LinComb.zero] at hx
  · split at h
    · cases h; rw [LinComb.vars_smul] at hx; exact .inr hx
    · split at h
      · cases h; rw [LinComb.vars_smul] at hx; exact .inl hx
      · cases h

theorem QuadComb.vars_ofLin {l : LinComb F} {x : Variable} (h : x ∈ (QuadComb.ofLin l).vars) :
    x = Variable.one ∨ x ∈ LinComb.vars l := by
  rw [QuadComb.mem_vars] at h
  rcases h with h | h
  · left
    simpa [QuadComb.ofLin, LinComb.one, LinComb.summand, LinComb.vars_eq] using h
  · exact .inr h

/-- A statement is not a block. -/
def Stmt.IsLeaf : Stmt F Z → Prop
  | .block _ => False
  | _ => True

theorem Stmt.isLeaf_of_clean {ss : List (Stmt F Z)} : ∀ s ∈ Stmt.cleanL ss, s.IsLeaf := by
  intro s hs
  have := Stmt.cleanL_not_block ss s hs
  cases s with
  | block b => exact absurd rfl (this b)
  | _ => trivial

theorem Stmt.cleanL_append (a b : List (Stmt F Z)) : Stmt.cleanL (a ++ b) = Stmt.cleanL a ++ Stmt.cleanL b := by
  induction a with
  | nil => rfl
  | cons s a ih => simp [Stmt.cleanL, ih]

theorem Stmt.clean_leaf {s : Stmt F Z} (h : s.IsLeaf) : s.clean = [s] := by
  cases s with
  | block _ => exact h.elim
  | _ => rfl

theorem Stmt.cleanL_leaf {ss : List (Stmt F Z)} (h : ∀ s ∈ ss, s.IsLeaf) : Stmt.cleanL ss = ss := by
  induction ss with
  | nil => rfl
  | cons s ss ih =>
    rw [Stmt.cleanL, Stmt.clean_leaf (h s (by simp)), ih (fun s hs => h s (by simp [hs]))]
    rfl

theorem satAll_clean {ρ : Assignment F} {ss : List (Stmt F Z)} : SatAll ρ (Stmt.cleanL ss) ↔ SatAll ρ ss :=
  Stmt.cleanL_sat ρ ss

theorem satAll_append {ρ : Assignment F} {a b : List (Stmt F Z)} : SatAll ρ (a ++ b) ↔ SatAll ρ a ∧ SatAll ρ b := by
  unfold SatAll
  constructor
  · intro h; exact ⟨fun s hs => h s (List.mem_append.2 (.inl hs)), fun s hs => h s (List.mem_append.2 (.inr hs))⟩
  · rintro ⟨h1, h2⟩ s hs
    rcases List.mem_append.1 hs with h | h
    · exact h1 s h
    · exact h2 s h

theorem satAll_cons {ρ : Assignment F} {s : Stmt F Z} {b : List (Stmt F Z)} : SatAll ρ (s :: b) ↔ s.Sat ρ ∧ SatAll ρ b := by
  unfold SatAll; exact List.forall_mem_cons

theorem satAll_nil {ρ : Assignment F} : SatAll ρ ([] : List (Stmt F Z)) := by simp [SatAll]

theorem DirectivesFresh.mono {seen seen' : List Variable} (h : ∀ x ∈ seen', x ∈ seen) {ss : List (Stmt F Z)}
    (hf : DirectivesFresh seen ss) : DirectivesFresh seen' ss := by
  induction ss generalizing seen seen' with
  | nil => trivial
  | cons s ss ih =>
    obtain ⟨h1, h2⟩ := hf
    refine ⟨?_, ih ?_ h2⟩
    · cases s with
      | directive d => exact fun o ho hc => h1 o ho (h o hc)
      | _ => trivial
    · intro x hx
      rcases List.mem_append.1 hx with hx | hx
      · exact List.mem_append.2 (.inl (h x hx))
      · exact List.mem_append.2 (.inr hx)

end Zok
