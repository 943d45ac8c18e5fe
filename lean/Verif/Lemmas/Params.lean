import Verif.Lemmas.FlatFun
import Verif.Lemmas.Frame

/-
The parameters of a function never reuse a cached decomposition.
-/

set_option linter.unusedSectionVars false

namespace Zok
variable {p : ℕ} {Z : Type} [Fact p.Prime]

/-- Variables that are not allocated yet are not in the cache. -/
def NewNotCached (st : FlState p Z) : Prop := ∀ k, st.next ≤ k → st.cache (.ident (Variable.new k)) = none

theorem flatSummands_not_ident (l : List (ZMod p × FlatExpr (ZMod p))) (v : Variable) :
    flatSummands l ≠ .ident v := by
  rw [flatSummands.eq_def]
  split <;> simp

theorem useSyms_state {n : ℕ} {st st' : FlState p Z} {vs : List Variable} (h : Flt.useSyms n st = some (vs, st')) :
    st' = { st with next := st.next + n } := by
  induction n generalizing st vs with
  | zero => cases h; rfl
  | succ n ih =>
    obtain ⟨v, st1, h1, h2⟩ := FlatM.bind_some h
    obtain ⟨vs', st2, h3, h4⟩ := FlatM.bind_some h2
    have h5 : some (_, st2) = some (vs, st') := h4
    cases h5
    cases h1
    rw [ih h3]
    simp [Nat.add_assoc, Nat.add_comm 1]

theorem new_inj {a b : ℕ} (h : Variable.new a = Variable.new b) : a = b := by
  have h' : ((1 : ℤ) + a) = 1 + b := h
  omega

theorem useParameter_noClash (q : ZParam) {st st' : FlState p Z} {a : Parameter}
    (h : Flt.useParameter q st = some (a, st')) (hk : NewNotCached st) :
    NewNotCached st' ∧ st'.clash = st.clash ∧ a.id = Variable.new st.next ∧ st.next < st'.next := by
  unfold Flt.useParameter at h
  obtain ⟨v, st1, h1, h2⟩ := FlatM.bind_some h
  obtain ⟨_, st2, h3, h4⟩ := FlatM.bind_some h2
  have h5 : some (⟨v, q.priv⟩, st2) = some (a, st') := h4
  cases h5
  cases h1
  cases ht : q.ty with
  | field => rw [ht] at h3; cases h3; exact ⟨fun k hk' => hk k (by simp at hk'; omega), rfl, rfl, by simp⟩
  | bool => rw [ht] at h3; cases h3; exact ⟨fun k hk' => hk k (by simp at hk'; omega), rfl, rfl, by simp⟩
  | uint w =>
    rw [ht] at h3
    obtain ⟨bs, st3, h6, h7⟩ := FlatM.bind_some h3
    have h8 : some ((), st3) = some (_, st') := h7
    cases h8
    unfold Flt.getBits at h6
    obtain ⟨_, s1, g1, g2⟩ := FlatM.bind_some h6
    obtain ⟨_, s2, g3, g4⟩ := FlatM.bind_some g2
    have e1 : ∀ {b : Bool} {u : Unit} {s s' : FlState p Z}, Flt.assert b s = some (u, s') → s' = s := by
      intro b u s s' h
      unfold Flt.assert at h
      split at h
      · cases h; rfl
      · cases h
    rw [e1 g3, e1 g1] at g4
    simp only [Flt.withField] at g4
    obtain ⟨f, s3, g5, g6⟩ := FlatM.bind_some g4
    cases g5
    obtain ⟨c, s4, g7, g8⟩ := FlatM.bind_some g6
    cases g7
    rw [show st.cache (.ident (Variable.new st.next)) = none from hk _ (le_refl _)] at g8
    simp only at g8
    unfold Flt.freshBits at g8
    obtain ⟨vs, t1, k1, k2⟩ := FlatM.bind_some g8
    rw [useSyms_state k1] at k2
    obtain ⟨_, t2, k3, k4⟩ := FlatM.bind_some k2
    cases k3
    obtain ⟨_, t3, k5, k6⟩ := FlatM.bind_some k4
    cases k5
    obtain ⟨_, t4, k7, k8⟩ := FlatM.bind_some k6
    cases k7
    obtain ⟨_, t5, k9, k10⟩ := FlatM.bind_some k8
    cases k9
    obtain ⟨_, t6, k11, k12⟩ := FlatM.bind_some k10
    cases k11
    have k13 : some (_, _) = some (bs, st') := k12
    cases k13
    refine ⟨?_, rfl, rfl, by simp; omega⟩
    intro k hk'
    simp only at hk' ⊢
    rw [if_neg (fun h => flatSummands_not_ident _ _ h.symm), if_neg, hk k (by omega)]
    intro h
    have := new_inj (FlatExpr.ident.inj h)
    omega

theorem useParameters_noClash (qs : List ZParam) {st st' : FlState p Z} {as : List Parameter}
    (h : Flt.useParameters qs st = some (as, st')) (hk : NewNotCached st) :
    NewNotCached st' ∧ st'.clash = st.clash ∧ st.next ≤ st'.next ∧
      (as.map Parameter.id).Pairwise (fun x y => x < y) ∧
      ∀ a ∈ as, ∃ k, a.id = Variable.new k ∧ st.next ≤ k ∧ k < st'.next := by
  induction qs generalizing st as with
  | nil => cases h; exact ⟨hk, rfl, le_refl _, by simp, by simp⟩
  | cons q qs ih =>
    rw [Flt.useParameters] at h
    obtain ⟨a, st1, h1, h2⟩ := FlatM.bind_some h
    obtain ⟨as', st2, h3, h4⟩ := FlatM.bind_some h2
    have h5 : some (a :: as', st2) = some (as, st') := h4
    cases h5
    obtain ⟨k1, k2, k3, k4⟩ := useParameter_noClash q h1 hk
    obtain ⟨l1, l2, l3, l4, l5⟩ := ih h3 k1
    refine ⟨l1, l2.trans k2, by omega, ?_, ?_⟩
    · rw [List.map_cons, List.pairwise_cons]
      refine ⟨?_, l4⟩
      intro x hx
      obtain ⟨b, hb, rfl⟩ := List.mem_map.1 hx
      obtain ⟨k, hk1, hk2, _⟩ := l5 b hb
      rw [k3, hk1]
      unfold Variable.new
      have : st.next < k := by omega
      show ((1 : ℤ) + st.next) < 1 + k
      omega
    · intro b hb
      rcases List.mem_cons.1 hb with rfl | hb
      · exact ⟨_, k3, le_refl _, by omega⟩
      · obtain ⟨k, hk1, hk2, hk3⟩ := l5 b hb
        exact ⟨k, hk1, by omega, hk3⟩

end Zok
