import Verif.Spec.Circuit
import Verif.Lemmas.Flat
import Verif.Lemmas.Bits
import Verif.Lemmas.Field

/-
A program logic for flattening actions: `Sound ρ L E pre m P` says that, whatever the state it starts from (with layout
`L`), the action `m` only adds statements and, if `pre` holds, the cache is correct for the assignment `ρ`, `ρ`
satisfies all the statements emitted so far and no clash is recorded, then `E` holds or the cache is still correct and
the result satisfies `P`.
-/

set_option linter.unusedSectionVars false

namespace Zok
variable {p : ℕ} {Z : Type} [Fact p.Prime]

/-- See the header of this file. -/
def Sound (ρ : Assignment (ZMod p)) (L : ZId → Option Variable) (E pre : Prop) {α : Type} (m : FlatM p Z α)
    (P : α → Prop) : Prop :=
  ∀ st a st', st.layout = L → m st = some (a, st') →
    (∃ o, st'.out = st.out ++ o) ∧ (st'.clash = false → st.clash = false) ∧ st'.layout = L ∧
    (pre → CacheOk ρ st → SatF ρ st'.out → st'.clash = false → E ∨ (CacheOk ρ st' ∧ P a))

namespace Sound
variable {ρ : Assignment (ZMod p)} {L : ZId → Option Variable} {E E' pre pre' : Prop} {α β : Type}
  {m : FlatM p Z α} {P Q : α → Prop} {R : β → Prop} {f : α → FlatM p Z β}

theorem _root_.Zok.SatF.left {a b : List (FlatStmt (ZMod p) Z)} (h : SatF ρ (a ++ b)) : SatF ρ a :=
  fun s hs => h s (List.mem_append_left _ hs)

theorem bind (h : Sound ρ L E pre m P) (hf : ∀ a, Sound ρ L E (pre ∧ P a) (f a) R) :
    Sound ρ L E pre (m >>= f) R := by
  intro st b st' hL hm
  have hm' : (m st).bind (fun t => f t.1 t.2) = some (b, st') := hm
  cases h1 : m st with
  | none => rw [h1] at hm'; cases hm'
  | some t =>
    obtain ⟨a, st1⟩ := t
    rw [h1] at hm'
    have h2 : f a st1 = some (b, st') := hm'
    obtain ⟨⟨o1, ho1⟩, hc1, hL1, hs1⟩ := h st a st1 hL h1
    obtain ⟨⟨o2, ho2⟩, hc2, hL2, hs2⟩ := hf a st1 b st' hL1 h2
    refine ⟨⟨o1 ++ o2, by rw [ho2, ho1, List.append_assoc]⟩, fun h => hc1 (hc2 h), hL2, ?_⟩
    intro hpre hcache hsat hclash
    rcases hs1 hpre hcache (by rw [ho2] at hsat; exact hsat.left) (hc2 hclash) with he | ⟨hc, hP⟩
    · exact Or.inl he
    · exact hs2 ⟨hpre, hP⟩ hc hsat hclash

theorem conseq (h : Sound ρ L E' pre' m Q) (hpre : pre → pre') (hE : pre → E' → E)
    (hP : ∀ a, pre → Q a → P a) : Sound ρ L E pre m P := by
  intro st a st' hL hm
  obtain ⟨h1, h2, h3, h4⟩ := h st a st' hL hm
  refine ⟨h1, h2, h3, fun hp hc hs hcl => ?_⟩
  rcases h4 (hpre hp) hc hs hcl with he | ⟨hc, hQ⟩
  · exact Or.inl (hE hp he)
  · exact Or.inr ⟨hc, hP a hp hQ⟩

/-- Weaken the postcondition. -/
theorem post (h : Sound ρ L E pre m Q) (hP : ∀ a, pre → Q a → P a) : Sound ρ L E pre m P :=
  h.conseq id (fun _ h => h) hP

/-- Strengthen the precondition. -/
theorem pre_of (h : Sound ρ L E pre' m P) (hpre : pre → pre') : Sound ρ L E pre m P :=
  h.conseq hpre (fun _ h => h) (fun _ _ h => h)

/-- Weaken the escape. -/
theorem esc (h : Sound ρ L E' pre m P) (hE : pre → E' → E) : Sound ρ L E pre m P :=
  h.conseq id hE (fun _ _ h => h)

theorem pure {a : α} (h : pre → P a) : Sound ρ L E pre (Pure.pure a : FlatM p Z α) P := by
  intro st b st' hL hm
  have : some (a, st) = some (b, st') := hm
  cases this
  exact ⟨⟨[], by simp⟩, id, hL, fun hp hc _ _ => Or.inr ⟨hc, h hp⟩⟩

theorem panic : Sound ρ L E pre (Flt.panic : FlatM p Z α) P := by
  intro st b st' hL hm; cases hm

theorem panic_bind {g : α → FlatM p Z β} : Sound ρ L E pre (Flt.panic >>= g : FlatM p Z β) R := by
  intro st b st' hL hm; cases hm

theorem emit (s : FlatStmt (ZMod p) Z) : Sound ρ L E pre (Flt.emit s) (fun _ => FlatStmt.Sat ρ s) := by
  intro st b st' hL hm
  cases hm
  exact ⟨⟨[s], rfl⟩, id, hL, fun _ hc hs _ => Or.inr ⟨hc, hs s (by simp)⟩⟩

theorem emitAll (ss : List (FlatStmt (ZMod p) Z)) :
    Sound ρ L E pre (Flt.emitAll ss) (fun _ => ∀ s ∈ ss, FlatStmt.Sat ρ s) := by
  intro st b st' hL hm
  cases hm
  exact ⟨⟨ss, rfl⟩, id, hL, fun _ hc hs _ => Or.inr ⟨hc, fun s hs' => hs s (by simp [hs'])⟩⟩

theorem useSym : Sound ρ L E pre (Flt.useSym : FlatM p Z Variable) (fun _ => True) := by
  intro st b st' hL hm
  cases hm
  exact ⟨⟨[], by simp⟩, id, hL, fun _ hc _ _ => Or.inr ⟨hc, trivial⟩⟩

theorem assert (b : Bool) : Sound ρ L E pre (Flt.assert b : FlatM p Z Unit) (fun _ => b = true) := by
  unfold Flt.assert
  split
  · exact Sound.pure fun _ => by assumption
  · exact Sound.panic

theorem unwrap (o : Option α) : Sound ρ L E pre (Flt.unwrap o : FlatM p Z α) (fun a => o = some a) := by
  cases o with
  | none => exact Sound.panic
  | some a => exact Sound.pure fun _ => rfl

theorem lookup (x : ZId) : Sound ρ L E pre (Flt.lookup x : FlatM p Z Variable) (fun v => L x = some v) := by
  intro st b st' hL hm
  unfold Flt.lookup at hm
  cases h : st.layout x with
  | none => rw [h] at hm; cases hm
  | some v =>
    rw [h] at hm
    cases hm
    exact ⟨⟨[], by simp⟩, id, hL, fun _ hc _ _ => Or.inr ⟨hc, by rw [← hL, h]⟩⟩

theorem getCache (e : FlatExpr (ZMod p)) : Sound ρ L E pre (Flt.getCache e : FlatM p Z _)
    (fun r => ∀ c, r = some c → EntryOk ρ e c) := by
  intro st b st' hL hm
  cases hm
  exact ⟨⟨[], by simp⟩, id, hL, fun _ hc _ _ => Or.inr ⟨hc, fun c h => hc e c h⟩⟩

theorem setCache (e : FlatExpr (ZMod p)) (c : CacheEntry p) :
    Sound ρ L E (EntryOk ρ e c) (Flt.setCache e c : FlatM p Z _) (fun _ => True) := by
  intro st b st' hL hm
  cases hm
  refine ⟨⟨[], by simp⟩, id, hL, fun he hc _ _ => Or.inr ⟨?_, trivial⟩⟩
  intro f c' h
  by_cases hf : f = e
  · subst hf; simp only [if_true] at h; cases h; exact he
  · simp only [hf, if_false] at h; exact hc f c' h

theorem raise (b : Bool) : Sound ρ L E pre (Flt.raise b : FlatM p Z Unit) (fun _ => b = false) := by
  intro st _ st' hL hm
  cases hm
  refine ⟨⟨[], by simp⟩, fun h => ?_, hL, fun _ hc _ hcl => Or.inr ⟨hc, ?_⟩⟩
  · simp only [Bool.or_eq_false_iff] at h; exact h.1
  · simp only [Bool.or_eq_false_iff] at hcl; exact hcl.2

theorem ite {b : Prop} [Decidable b] {m1 m2 : FlatM p Z α} (h1 : b → Sound ρ L E pre m1 P)
    (h2 : ¬ b → Sound ρ L E pre m2 P) : Sound ρ L E pre (if b then m1 else m2) P := by
  split
  · exact h1 (by assumption)
  · exact h2 (by assumption)

end Sound

end Zok
