import Verif.Spec.HonestFlat
import Verif.Lemmas.FlatMono
import Verif.Lemmas.Gadgets2

/-
A program logic for the completeness of flattening actions: `Cmp sem ρ L pre m P` says that if `pre` holds, the cache
holds the digits of its expressions, the statements emitted before `m` succeed and those emitted by `m` are computed
honestly, then the statements emitted by `m` succeed, the cache is still right, and the result satisfies `P`.
-/

set_option linter.unusedSectionVars false

namespace Zok
variable {p : ℕ} {Z : Type} [Fact p.Prime]

theorem FlatStmt.Good.sat {sem : SolverSem (ZMod p) Z} {ρ : Assignment (ZMod p)} {s : FlatStmt (ZMod p) Z}
    (h : FlatStmt.Good sem ρ s) : FlatStmt.Sat ρ s := by
  induction h with
  | condition h => exact .condition h
  | definition h => exact .definition h
  | directive h => exact .directive _ _ _
  | log l => exact .log l
  | block h ih => exact .block ih

theorem GoodF.satF {sem : SolverSem (ZMod p) Z} {ρ : Assignment (ZMod p)} {out : List (FlatStmt (ZMod p) Z)}
    (h : GoodF sem ρ out) : SatF ρ out := fun s hs => (h s hs).sat

theorem HonF.left {sem : SolverSem (ZMod p) Z} {ρ : Assignment (ZMod p)} {a b : List (FlatStmt (ZMod p) Z)}
    (h : HonF sem ρ (a ++ b)) : HonF sem ρ a := fun s hs => h s (List.mem_append_left _ hs)

theorem EntryH.ok {ρ : Assignment (ZMod p)} {f : FlatExpr (ZMod p)} {c : CacheEntry p} (h : EntryH ρ f c) :
    EntryOk ρ f c := by
  obtain ⟨h1, h2, h3⟩ := h
  refine ⟨h1, _, (f.val ρ).val, h2, Fld.cast_val _, natBE_bitsBE _ _, fun he => natBE_bitsBE_of_lt (h3 he),
    Or.inl (Fld.val_lt _)⟩

theorem CacheH.ok {ρ : Assignment (ZMod p)} {st : FlState p Z} (h : CacheH ρ st) : CacheOk ρ st :=
  fun f c hc => (h f c hc).ok

/-- See the header of this file. -/
def Cmp (sem : SolverSem (ZMod p) Z) (ρ : Assignment (ZMod p)) (L : ZId → Option Variable) (pre : Prop) {α : Type}
    (m : FlatM p Z α) (P : α → Prop) : Prop :=
  ∀ st a st', st.layout = L → m st = some (a, st') →
    (∃ o, st'.out = st.out ++ o) ∧ (st'.clash = false → st.clash = false) ∧ st'.layout = L ∧
    (pre → CacheH ρ st → GoodF sem ρ st.out → HonF sem ρ st'.out → st'.clash = false →
      GoodF sem ρ st'.out ∧ CacheH ρ st' ∧ P a)

namespace Cmp
variable {sem : SolverSem (ZMod p) Z} {ρ : Assignment (ZMod p)} {L : ZId → Option Variable} {pre pre' : Prop}
  {α β : Type} {m : FlatM p Z α} {P Q : α → Prop} {R : β → Prop} {f : α → FlatM p Z β}

theorem bind (h : Cmp sem ρ L pre m P) (hf : ∀ a, Cmp sem ρ L (pre ∧ P a) (f a) R) :
    Cmp sem ρ L pre (m >>= f) R := by
  intro st b st' hL hm
  obtain ⟨a, st1, h1, h2⟩ := FlatM.bind_some hm
  obtain ⟨⟨o1, ho1⟩, hc1, hL1, hs1⟩ := h st a st1 hL h1
  obtain ⟨⟨o2, ho2⟩, hc2, hL2, hs2⟩ := hf a st1 b st' hL1 h2
  refine ⟨⟨o1 ++ o2, by rw [ho2, ho1, List.append_assoc]⟩, fun h => hc1 (hc2 h), hL2, ?_⟩
  intro hpre hcache hgood hhon hclash
  obtain ⟨g1, g2, g3⟩ := hs1 hpre hcache hgood (by rw [ho2] at hhon; exact hhon.left) (hc2 hclash)
  exact hs2 ⟨hpre, g3⟩ g2 g1 hhon hclash

theorem conseq (h : Cmp sem ρ L pre' m Q) (hpre : pre → pre') (hP : ∀ a, pre → Q a → P a) :
    Cmp sem ρ L pre m P := by
  intro st a st' hL hm
  obtain ⟨h1, h2, h3, h4⟩ := h st a st' hL hm
  refine ⟨h1, h2, h3, fun hp hc hg hh hcl => ?_⟩
  obtain ⟨g1, g2, g3⟩ := h4 (hpre hp) hc hg hh hcl
  exact ⟨g1, g2, hP a hp g3⟩

/-- Weaken the postcondition. -/
theorem post (h : Cmp sem ρ L pre m Q) (hP : ∀ a, pre → Q a → P a) : Cmp sem ρ L pre m P := h.conseq id hP

/-- Forget the postcondition. -/
theorem drop (h : Cmp sem ρ L pre m Q) : Cmp sem ρ L pre m (fun _ => True) := h.post fun _ _ _ => trivial

/-- Strengthen the precondition. -/
theorem pre_of (h : Cmp sem ρ L pre' m P) (hpre : pre → pre') : Cmp sem ρ L pre m P := h.conseq hpre (fun _ _ h => h)

theorem of_mono (h : Mono m) : Cmp sem ρ L False m P := by
  intro st a st' hL hm
  obtain ⟨h1, h2, h3, _⟩ := h st a st' hm
  exact ⟨h1, h2, h3.trans hL, False.elim⟩

/-- The precondition can be assumed. -/
theorem intro (hm : Mono m) (h : pre → Cmp sem ρ L True m P) : Cmp sem ρ L pre m P := by
  by_cases hp : pre
  · exact (h hp).pre_of fun _ => trivial
  · exact (of_mono hm).pre_of fun h => hp h

/-- Add what soundness says of the result. -/
theorem sound {E : Prop} (h : Cmp sem ρ L pre m P) (hs : Sound ρ L E pre' m Q) (hpre : pre → pre')
    (hE : pre → E → False) : Cmp sem ρ L pre m (fun a => P a ∧ Q a) := by
  intro st a st' hL hm
  obtain ⟨h1, h2, h3, h4⟩ := h st a st' hL hm
  refine ⟨h1, h2, h3, fun hp hc hg hh hcl => ?_⟩
  obtain ⟨g1, g2, g3⟩ := h4 hp hc hg hh hcl
  obtain ⟨_, _, _, s4⟩ := hs st a st' hL hm
  rcases s4 (hpre hp) hc.ok g1.satF hcl with he | ⟨_, hq⟩
  · exact (hE hp he).elim
  · exact ⟨g1, g2, g3, hq⟩

/-- As `sound`, without escape. -/
theorem snd (h : Cmp sem ρ L pre m P) (hs : Sound ρ L False pre' m Q) (hpre : pre → pre') :
    Cmp sem ρ L pre m Q := (h.sound hs hpre fun _ h => h).post fun _ _ h => h.2

theorem pure {a : α} (h : pre → P a) : Cmp sem ρ L pre (Pure.pure a : FlatM p Z α) P := by
  intro st b st' hL hm
  have : some (a, st) = some (b, st') := hm
  cases this
  exact ⟨⟨[], by simp⟩, id, hL, fun hp hc hg _ _ => ⟨hg, hc, h hp⟩⟩

theorem panic : Cmp sem ρ L pre (Flt.panic : FlatM p Z α) P := by
  intro st b st' hL hm; cases hm

theorem panic_bind {g : α → FlatM p Z β} : Cmp sem ρ L pre (Flt.panic >>= g : FlatM p Z β) R := by
  intro st b st' hL hm; cases hm

theorem goodF_snoc {out : List (FlatStmt (ZMod p) Z)} {ss : List (FlatStmt (ZMod p) Z)} (h : GoodF sem ρ out)
    (hs : ∀ s ∈ ss, FlatStmt.Good sem ρ s) : GoodF sem ρ (out ++ ss) := by
  intro s hm
  rcases List.mem_append.1 hm with hm | hm
  · exact h s hm
  · exact hs s hm

/-- A statement that succeeds if it is computed honestly. -/
theorem emit (s : FlatStmt (ZMod p) Z) (h : pre → FlatStmt.Hon sem ρ s → FlatStmt.Good sem ρ s) :
    Cmp sem ρ L pre (Flt.emit s) (fun _ => FlatStmt.Good sem ρ s) := by
  intro st b st' hL hm
  cases hm
  refine ⟨⟨[s], rfl⟩, id, hL, fun hp hc hg hh _ => ?_⟩
  have := h hp (hh s (by simp))
  exact ⟨goodF_snoc hg (by simpa using this), hc, this⟩

theorem emitAll (ss : List (FlatStmt (ZMod p) Z))
    (h : pre → (∀ s ∈ ss, FlatStmt.Hon sem ρ s) → ∀ s ∈ ss, FlatStmt.Good sem ρ s) :
    Cmp sem ρ L pre (Flt.emitAll ss) (fun _ => ∀ s ∈ ss, FlatStmt.Good sem ρ s) := by
  intro st b st' hL hm
  cases hm
  refine ⟨⟨ss, rfl⟩, id, hL, fun hp hc hg hh _ => ?_⟩
  have := h hp (fun s hs => hh s (by simp [hs]))
  exact ⟨goodF_snoc hg this, hc, this⟩

/-- A condition that holds. -/
theorem cond {l q : FlatExpr (ZMod p)} {e : RuntimeError} (h : pre → l.val ρ = q.val ρ) :
    Cmp sem ρ L pre (Flt.emit (.condition l q e)) (fun _ => True) :=
  (emit _ fun hp _ => .condition (h hp)).drop

/-- A definition. -/
theorem defn (x : Variable) (e : FlatExpr (ZMod p)) :
    Cmp sem ρ L pre (Flt.emit (.definition x e)) (fun _ => ρ x = e.val ρ) :=
  (emit _ fun _ h => by cases h with | definition h => exact .definition h).post fun _ _ h => by
    cases h with | definition h => exact h

/-- A directive whose solver returns. -/
theorem direc {o : List Variable} {s : Solver Z} {i : List (FlatExpr (ZMod p))} (res : List (ZMod p))
    (h : pre → executeSolver sem s (i.map (FlatExpr.val ρ)) [] = .ok res ∧ res.length = o.length) :
    Cmp sem ρ L pre (Flt.emit (.directive o s i)) (fun _ => o.map ρ = res) := by
  refine (emit _ (fun hp hh => ?_)).post fun _ hp hg => ?_
  · obtain ⟨h1, h2⟩ := h hp
    cases hh with
    | directive hh => exact .directive (by rw [h1, hh res h1 h2])
  · obtain ⟨h1, h2⟩ := h hp
    cases hg with
    | directive hg => rw [h1] at hg; exact (Except.ok.inj hg).symm

theorem useSym : Cmp sem ρ L pre (Flt.useSym : FlatM p Z Variable) (fun _ => True) := by
  intro st b st' hL hm
  cases hm
  exact ⟨⟨[], by simp⟩, id, hL, fun _ hc hg _ _ => ⟨hg, hc, trivial⟩⟩

theorem assert (b : Bool) : Cmp sem ρ L pre (Flt.assert b : FlatM p Z Unit) (fun _ => b = true) := by
  unfold Flt.assert
  split
  · exact Cmp.pure fun _ => by assumption
  · exact Cmp.panic

theorem unwrap (o : Option α) : Cmp sem ρ L pre (Flt.unwrap o : FlatM p Z α) (fun a => o = some a) := by
  cases o with
  | none => exact Cmp.panic
  | some a => exact Cmp.pure fun _ => rfl

theorem lookup (x : ZId) : Cmp sem ρ L pre (Flt.lookup x : FlatM p Z Variable) (fun v => L x = some v) := by
  intro st b st' hL hm
  unfold Flt.lookup at hm
  cases h : st.layout x with
  | none => rw [h] at hm; cases hm
  | some v =>
    rw [h] at hm
    cases hm
    exact ⟨⟨[], by simp⟩, id, hL, fun _ hc hg _ _ => ⟨hg, hc, by rw [← hL, h]⟩⟩

theorem getCache (e : FlatExpr (ZMod p)) : Cmp sem ρ L pre (Flt.getCache e : FlatM p Z _)
    (fun r => ∀ c, r = some c → EntryH ρ e c) := by
  intro st b st' hL hm
  cases hm
  exact ⟨⟨[], by simp⟩, id, hL, fun _ hc hg _ _ => ⟨hg, hc, fun c h => hc e c h⟩⟩

theorem setCache (e : FlatExpr (ZMod p)) (c : CacheEntry p) :
    Cmp sem ρ L (EntryH ρ e c) (Flt.setCache e c : FlatM p Z _) (fun _ => True) := by
  intro st b st' hL hm
  cases hm
  refine ⟨⟨[], by simp⟩, id, hL, fun he hc hg _ _ => ⟨hg, ?_, trivial⟩⟩
  intro f c' h
  by_cases hf : f = e
  · subst hf; simp only [if_true] at h; cases h; exact he
  · simp only [hf, if_false] at h; exact hc f c' h

theorem raise (b : Bool) : Cmp sem ρ L pre (Flt.raise b : FlatM p Z Unit) (fun _ => b = false) := by
  intro st _ st' hL hm
  cases hm
  refine ⟨⟨[], by simp⟩, fun h => ?_, hL, fun _ hc hg _ hcl => ⟨hg, hc, ?_⟩⟩
  · simp only [Bool.or_eq_false_iff] at h; exact h.1
  · simp only [Bool.or_eq_false_iff] at hcl; exact hcl.2

/-- A use of `raise` before other actions: the flag is known not to be raised. -/
theorem raise_first {b : Bool} {k : FlatM p Z α} (hk : Mono k)
    (h : b = false → Cmp sem ρ L pre k P) : Cmp sem ρ L pre (do Flt.raise b; k) P := by
  refine bind (raise b) fun _ => ?_
  exact intro hk fun hp => (h hp.2).pre_of fun _ => hp.1

theorem ite {b : Prop} [Decidable b] {m1 m2 : FlatM p Z α} (h1 : b → Cmp sem ρ L pre m1 P)
    (h2 : ¬ b → Cmp sem ρ L pre m2 P) : Cmp sem ρ L pre (if b then m1 else m2) P := by
  split
  · exact h1 (by assumption)
  · exact h2 (by assumption)

end Cmp

end Zok
