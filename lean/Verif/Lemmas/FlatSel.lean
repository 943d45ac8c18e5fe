import Verif.Lemmas.Gadgets2
import Verif.Lemmas.ZirBeq
import Verif.Spec.ZirOk

/-
Array selection, and the equations of the flattener that need some work.
-/

set_option linter.unusedSectionVars false
set_option linter.unusedVariables false

namespace Zok
variable {p : ℕ} {Z : Type} [Fact p.Prime]
variable {ρ : Assignment (ZMod p)} {L : ZId → Option Variable} {E pre : Prop}

open FlatExpr Fld

theorem exc_ok {α β : Type} (a : α) (f : α → Except Fault β) : (Except.ok a >>= f) = f a := rfl

theorem exc_err {α β : Type} (e : Fault) (f : α → Except Fault β) : (Except.error e >>= f) = .error e := rfl

/-- The elements of a selection, for any type of elements. -/
def selGen {α : Type} (f : α → FlatM p Z (FlatExpr (ZMod p))) : List α → ℕ → (ℕ → FlatM p Z (FlatExpr (ZMod p))) →
    FlatM p Z (List (FlatExpr (ZMod p) × FlatExpr (ZMod p)))
  | [], _, _ => pure []
  | e :: es, i, c => do
    let k ← c i
    let v ← f e
    let rest ← selGen f es (i + 1) c
    pure ((k, v) :: rest)

theorem flattenSelF_eq (es : List (FExpr (ZMod p))) (i : ℕ) (c : ℕ → FlatM p Z (FlatExpr (ZMod p))) :
    Flt.flattenSelF es i c = selGen Flt.flattenF es i c := by
  induction es generalizing i with
  | nil => rw [Flt.flattenSelF]; rfl
  | cons e es ih => rw [Flt.flattenSelF, selGen]; simp only [ih]

theorem flattenSelB_eq (es : List (BExpr (ZMod p))) (i : ℕ) (c : ℕ → FlatM p Z (FlatExpr (ZMod p))) :
    Flt.flattenSelB es i c = selGen Flt.flattenB es i c := by
  induction es generalizing i with
  | nil => rw [Flt.flattenSelB]; rfl
  | cons e es ih => rw [Flt.flattenSelB, selGen]; simp only [ih]

theorem flattenSelU_eq (es : List (UExpr (ZMod p))) (i : ℕ) (c : ℕ → FlatM p Z (FlatExpr (ZMod p))) :
    Flt.flattenSelU es i c = selGen (fun e => do let u ← Flt.flattenU e; Flt.getField u) es i c := by
  induction es generalizing i with
  | nil => rw [Flt.flattenSelU]; rfl
  | cons e es ih => rw [Flt.flattenSelU, selGen]; simp only [ih, bind_assoc]

/-- The values of a list of expressions. -/
def evList {α β : Type} (ev : α → Except Fault β) : List α → Except Fault (List β)
  | [] => .ok []
  | e :: es => do
    let v ← ev e
    let vs ← evList ev es
    .ok (v :: vs)

theorem evalFs_eq (env : ZEnv p) (es : List (FExpr (ZMod p))) : evalFs env es = evList (evalF env) es := by
  induction es with
  | nil => rw [evalFs]; rfl
  | cons e es ih => rw [evalFs, evList, ih]

theorem evalBs_eq (env : ZEnv p) (es : List (BExpr (ZMod p))) : evalBs env es = evList (evalB env) es := by
  induction es with
  | nil => rw [evalBs]; rfl
  | cons e es ih => rw [evalBs, evList, ih]

theorem evalUs_eq (env : ZEnv p) (es : List (UExpr (ZMod p))) : evalUs env es = evList (evalU env) es := by
  induction es with
  | nil => rw [evalUs]; rfl
  | cons e es ih => rw [evalUs, evList, ih]

theorem okFs_mem {Γ : Ctx} {es : List (FExpr (ZMod p))} (h : OkFs Γ es) : ∀ e ∈ es, OkF Γ e := by
  induction es with
  | nil => simp
  | cons e es ih =>
    rw [OkFs] at h
    intro e' he
    rcases List.mem_cons.1 he with rfl | he
    · exact h.1
    · exact ih h.2 e' he

theorem okBs_mem {Γ : Ctx} {es : List (BExpr (ZMod p))} (h : OkBs Γ es) : ∀ e ∈ es, OkB Γ e := by
  induction es with
  | nil => simp
  | cons e es ih =>
    rw [OkBs] at h
    intro e' he
    rcases List.mem_cons.1 he with rfl | he
    · exact h.1
    · exact ih h.2 e' he

theorem okUs_mem {Γ : Ctx} {w mx : ℕ} {es : List (UExpr (ZMod p))} (h : OkUs Γ w mx es) :
    ∀ e ∈ es, OkU Γ e ∧ e.width = w ∧ e.emax ≤ mx := by
  induction es with
  | nil => simp
  | cons e es ih =>
    rw [OkUs] at h
    intro e' he
    rcases List.mem_cons.1 he with rfl | he
    · exact h.1
    · exact ih h.2 e' he

/-- The conditions computed for the positions `i, i + 1, ..` and index `n`. -/
def SelConds (ρ : Assignment (ZMod p)) (n : ℕ) : ℕ → List (FlatExpr (ZMod p) × FlatExpr (ZMod p)) → Prop
  | _, [] => True
  | i, t :: l => t.1.val ρ = boolF (decide (i = n)) ∧ SelConds ρ n (i + 1) l

theorem selConds_past {n i : ℕ} {l : List (FlatExpr (ZMod p) × FlatExpr (ZMod p))} (h : SelConds ρ n i l)
    (hi : n < i) : (l.map (fun t => t.1.val ρ)).sum = 0 ∧ (l.map (fun t => t.1.val ρ * t.2.val ρ)).sum = 0 := by
  induction l generalizing i with
  | nil => simp
  | cons t l ih =>
    obtain ⟨h1, h2⟩ := h
    obtain ⟨h3, h4⟩ := ih h2 (by omega)
    have : decide (i = n) = false := by simp; omega
    rw [this] at h1
    simp only [List.map_cons, List.sum_cons, h3, h4, h1]
    simp [boolF]

/-- If the conditions sum up to one then the index is in range and the products sum up to the selected element. -/
theorem selConds_sum {n i : ℕ} {l : List (FlatExpr (ZMod p) × FlatExpr (ZMod p))} (h : SelConds ρ n i l)
    (hi : i ≤ n) (hs : (l.map (fun t => t.1.val ρ)).sum = 1) :
    ∃ t, l[n - i]? = some t ∧ (l.map (fun t => t.1.val ρ * t.2.val ρ)).sum = t.2.val ρ := by
  induction l generalizing i with
  | nil => simp at hs
  | cons t l ih =>
    obtain ⟨h1, h2⟩ := h
    by_cases hin : i = n
    · subst hin
      obtain ⟨_, h4⟩ := selConds_past h2 (Nat.lt_succ_self i)
      refine ⟨t, by simp, ?_⟩
      simp only [List.map_cons, List.sum_cons, h4, h1]
      simp [boolF]
    · have hf : decide (i = n) = false := by simp [hin]
      rw [hf] at h1
      simp only [List.map_cons, List.sum_cons, h1] at hs ⊢
      obtain ⟨t', h5, h6⟩ := ih h2 (by omega) (by simpa [boolF] using hs)
      refine ⟨t', ?_, by rw [h6]; simp [boolF]⟩
      have : n - i = (n - (i + 1)) + 1 := by omega
      rw [this]; simpa using h5

namespace Sound

theorem bind_ex {ι α β : Type} [Inhabited ι] {m : FlatM p Z α} {f : α → FlatM p Z β} {P : ι → α → Prop}
    {R : β → Prop} (h : Sound ρ L E pre m (fun a => ∃ i, P i a)) (hf : ∀ a i, Sound ρ L E (pre ∧ P i a) (f a) R) :
    Sound ρ L E pre (m >>= f) R := by
  refine Sound.bind h fun a => ?_
  intro st b st' hL hm
  obtain ⟨h1, h2, h3, _⟩ := hf a default st b st' hL hm
  refine ⟨h1, h2, h3, ?_⟩
  rintro ⟨hp, i, hi⟩
  exact (hf a i st b st' hL hm).2.2.2 ⟨hp, hi⟩

/-- Turn what is known into a hypothesis that no longer depends on the run. -/
theorem escape {α : Type} {m : FlatM p Z α} {P : α → Prop} {E' : Prop} (h : Sound ρ L E' True m P)
    (hE : pre → E' → E) : Sound ρ L E pre m P := (h.pre_of fun _ => trivial).esc hE

theorem selGen {α β : Type} (f : α → FlatM p Z (FlatExpr (ZMod p))) (ev : α → Except Fault β)
    (R : FlatExpr (ZMod p) → β → Prop) (c : ℕ → FlatM p Z (FlatExpr (ZMod p))) (ix : Except Fault ℕ)
    (es : List α)
    (hes : ∀ e ∈ es, Sound ρ L (ev e = .error .divZero) True (f e) (fun a => ∃ v, ev e = .ok v ∧ R a v))
    (hc : ∀ j, j < 2 ^ 32 → Sound ρ L (ix = .error .divZero) True (c j)
      (fun k => ∃ n, ix = .ok n ∧ k.val ρ = boolF (decide (j = n)))) (i : ℕ) (hi : i + es.length ≤ 2 ^ 32) :
    Sound ρ L (ix = .error .divZero ∨ (∃ n, ix = .ok n) ∧ evList ev es = .error .divZero) pre
      (Zok.selGen f es i c) (fun l => ∃ vs, evList ev es = .ok vs ∧ (es = [] ∧ l = [] ∨
        ∃ n, ix = .ok n ∧ SelConds ρ n i l ∧ List.Forall₂ R (l.map Prod.snd) vs)) := by
  induction es generalizing i pre with
  | nil => exact Sound.pure fun _ => ⟨[], rfl, Or.inl ⟨rfl, rfl⟩⟩
  | cons e es ih =>
    rw [Zok.selGen]
    simp only [List.length_cons] at hi
    refine Sound.bind ((hc i (by omega)).escape fun _ h => Or.inl h) fun k =>
      Sound.bind ((hes e (by simp)).escape ?_) fun v =>
      Sound.bind ((ih (fun e he => hes e (by simp [he])) (i + 1) (by omega)).esc ?_) fun rest => Sound.pure ?_
    · rintro ⟨_, n, hn, _⟩ he
      refine Or.inr ⟨⟨n, hn⟩, ?_⟩
      simp [evList, he, exc_ok, exc_err]
    · rintro ⟨⟨_, n, hn, _⟩, v, hv, _⟩ he
      rcases he with he | ⟨h1, h2⟩
      · exact Or.inl he
      · refine Or.inr ⟨h1, ?_⟩
        simp [evList, hv, h2, exc_ok, exc_err]
    · rintro ⟨⟨⟨_, n, hn, hk⟩, x, hx, hR⟩, vs, hvs, h⟩
      refine ⟨x :: vs, by simp [evList, hx, hvs, exc_ok, exc_err], Or.inr ⟨n, hn, ?_⟩⟩
      rcases h with ⟨rfl, rfl⟩ | ⟨n', hn', h1, h2⟩
      · cases hvs
        exact ⟨⟨hk, trivial⟩, by simpa using hR⟩
      · rw [hn] at hn'
        cases hn'
        exact ⟨⟨hk, h1⟩, List.Forall₂.cons hR h2⟩

/-- A whole selection. -/
theorem select {α β : Type} (f : α → FlatM p Z (FlatExpr (ZMod p))) (ev : α → Except Fault β)
    (R : FlatExpr (ZMod p) → β → Prop) (c : ℕ → FlatM p Z (FlatExpr (ZMod p))) (ix : Except Fault ℕ)
    (hR : ∀ a b v, a.val ρ = b.val ρ → R a v → R b v)
    (es : List α)
    (hes : ∀ e ∈ es, Sound ρ L (ev e = .error .divZero) True (f e) (fun a => ∃ v, ev e = .ok v ∧ R a v))
    (hc : ∀ j, j < 2 ^ 32 → Sound ρ L (ix = .error .divZero) True (c j)
      (fun k => ∃ n, ix = .ok n ∧ k.val ρ = boolF (decide (j = n)))) (hl : es.length ≤ 2 ^ 32) :
    Sound ρ L ((do let k ← ix; let vs ← evList ev es; selectVal vs k) = .error .divZero) pre
      (Zok.selGen f es 0 c >>= Flt.selFinish)
      (fun u => ∃ g, u = Flt.withField g ∧ (∀ x, g ≠ .value x) ∧
        ∃ v, (do let k ← ix; let vs ← evList ev es; selectVal vs k) = .ok v ∧ R g v) := by
  refine Sound.bind ((selGen f ev R c ix es hes hc 0 (by omega)).esc ?_) fun l => (selFinish l).post ?_
  · rintro _ (h | ⟨⟨n, hn⟩, h⟩)
    · rw [h]; rfl
    · rw [hn, h]; rfl
  · rintro u ⟨_, vs, hvs, h⟩ ⟨g, hg, h1, h2, h3⟩
    refine ⟨g, hg, h3, ?_⟩
    rcases h with ⟨_, rfl⟩ | ⟨n, hn, hc, hall⟩
    · simp at h1
    · obtain ⟨t, ht, hs⟩ := selConds_sum hc (Nat.zero_le n) h1
      rw [Nat.sub_zero] at ht
      have ht' : (l.map Prod.snd)[n]? = some t.2 := by rw [List.getElem?_map, ht]; rfl
      obtain ⟨v, hv, hr⟩ : ∃ v, vs[n]? = some v ∧ R t.2 v := by
        have hlen := hall.length_eq
        have hlt : n < (l.map Prod.snd).length := (List.getElem?_eq_some_iff.1 ht').1
        have hlt' : n < vs.length := hlen ▸ hlt
        refine ⟨vs[n], List.getElem?_eq_getElem hlt', ?_⟩
        have := (List.forall₂_iff_get.1 hall).2 n hlt hlt'
        have e : (l.map Prod.snd).get ⟨n, hlt⟩ = t.2 := (List.getElem?_eq_some_iff.1 ht').2
        rw [e] at this
        simpa using this
      refine ⟨v, ?_, hR t.2 g v (by rw [h2, hs]) hr⟩
      rw [hn, hvs]
      simp [exc_ok, exc_err, selectVal, hv]

end Sound

/-- The three shapes of the flattening of `Xor`. -/
theorem flattenUI_xor_cases (w : ℕ) (l r : UExpr (ZMod p)) (P : FlatM p Z (FlatU p) → Prop)
    (hu : ∀ (o : Option (UMeta (ZMod p))) m, P m → P (Flt.unwrap o >>= fun _ => m))
    (hch : ∀ wl ml a b wr mr wa ma c, l = .mk wl ml (.and a b) → r = .mk wr mr (.and (.mk wa ma (.not a)) c) →
      P (Flt.threeBits Flt.chBit (Flt.flattenU a) (Flt.flattenU b) (Flt.flattenU c)))
    (hmaj : ∀ wl ml w0 m0 a b w1 m1 c wr mr, l = .mk wl ml (.xor (.mk w0 m0 (.and a b)) (.mk w1 m1 (.and a c))) →
      r = .mk wr mr (.and b c) →
      P (Flt.threeBits Flt.majBit (Flt.flattenU a) (Flt.flattenU b) (Flt.flattenU c)))
    (hd : P (Flt.defaultXor (Flt.flattenU l) (Flt.flattenU r))) : P (Flt.flattenUI w (.xor l r)) := by
  have key : ∀ i, i = UInner.xor l r → P (Flt.flattenUI w i) := by
    intro i hi
    unfold Flt.flattenUI
    split <;> try (cases hi; done)
    · rename_i wl ml a b wr mr aa c
      injection hi with h1 h2
      subst h1 h2
      refine hu _ _ (hu _ _ ?_)
      split
      · rename_i hb
        obtain ⟨wa, ma, ia⟩ := aa
        have := UInner.eq_of_beq _ _ hb
        simp only [UExpr.inner] at this
        subst this
        exact hch _ _ _ _ _ _ _ _ _ rfl rfl
      · exact hd
    · injection hi with h1 h2
      subst h1 h2
      refine hu _ _ (hu _ _ (hu _ _ (hu _ _ ?_)))
      split
      · rename_i hb
        simp only [Bool.and_eq_true] at hb
        have e1 := UExpr.eq_of_beq _ _ hb.1.1
        have e2 := UExpr.eq_of_beq _ _ hb.1.2
        have e3 := UExpr.eq_of_beq _ _ hb.2
        subst e1 e2 e3
        exact hmaj _ _ _ _ _ _ _ _ _ _ _ rfl rfl
      · exact hd
    · injection hi with h1 h2
      subst h1 h2
      exact hu _ _ (hu _ _ hd)
  exact key _ rfl

end Zok
