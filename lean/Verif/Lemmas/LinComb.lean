import Verif.Spec.Value
import Verif.Lemmas.SMap
import Mathlib.Tactic.Ring
import Mathlib.Tactic.FieldSimp
import Mathlib.Tactic.LinearCombination

set_option linter.unusedSectionVars false

namespace Zok
variable {F : Type _} [Field F]

namespace LinComb

@[simp] theorem val_nil (ρ : Assignment F) : val ρ [] = 0 := by simp [val]
@[simp] theorem val_cons (ρ : Assignment F) (t : Variable × F) (l : LinComb F) :
    val ρ (t :: l) = t.2 * ρ t.1 + val ρ l := by simp [val]
@[simp] theorem val_append (ρ : Assignment F) (a b : LinComb F) : val ρ (a ++ b) = val ρ a + val ρ b := by
  simp [val]
@[simp] theorem coeff_nil (x : Variable) : coeff ([] : LinComb F) x = 0 := by simp [coeff]
@[simp] theorem coeff_cons (t : Variable × F) (l : LinComb F) (x : Variable) :
    coeff (t :: l) x = (if t.1 = x then t.2 else 0) + coeff l x := by simp [coeff]
@[simp] theorem coeff_append (a b : LinComb F) (x : Variable) : coeff (a ++ b) x = coeff a x + coeff b x := by
  simp [coeff]

theorem val_add (ρ : Assignment F) (a b : LinComb F) : val ρ (add a b) = val ρ a + val ρ b := by
  simp [add]

theorem val_map_neg (ρ : Assignment F) (b : LinComb F) :
    val ρ (b.map (fun t => (t.1, 0 - t.2))) = - val ρ b := by
  induction b with
  | nil => simp
  | cons t b ih => simp only [List.map_cons, val_cons, ih]; ring

theorem val_sub (ρ : Assignment F) (a b : LinComb F) : val ρ (sub a b) = val ρ a - val ρ b := by
  rw [sub, val_append, val_map_neg]; ring

theorem val_map_mul (ρ : Assignment F) (a : LinComb F) (k : F) :
    val ρ (a.map (fun t => (t.1, t.2 * k))) = val ρ a * k := by
  induction a with
  | nil => simp
  | cons t b ih => simp only [List.map_cons, val_cons, ih]; ring

theorem val_smul [DecidableEq F] (ρ : Assignment F) (a : LinComb F) (k : F) : val ρ (smul a k) = val ρ a * k := by
  unfold smul
  split
  · rename_i h; simp [h]
  · exact val_map_mul ρ a k

theorem val_one (ρ : Assignment F) : val ρ (one : LinComb F) = ρ Variable.one := by simp [one, summand]

@[simp] theorem val_ofVar (ρ : Assignment F) (v : Variable) : val ρ (ofVar v) = ρ v := by simp [ofVar]

theorem val_div [DecidableEq F] (ρ : Assignment F) {a l : LinComb F} {k : F} (h : div a k = some l) :
    k ≠ 0 ∧ val ρ l = val ρ a / k := by
  unfold div at h
  split at h
  · simp at h
  · rename_i hk
    simp only [Option.some.injEq] at h
    subst h
    exact ⟨hk, by rw [val_smul, div_eq_mul_inv]⟩

theorem foldl_acc (l : LinComb F) (a : F) :
    l.foldl (fun acc e => acc + e.2) a = a + (l.map Prod.snd).sum := by
  induction l generalizing a with
  | nil => simp
  | cons t l ih => simp only [List.foldl_cons, ih, List.map_cons, List.sum_cons]; ring

theorem val_of_all_eq (ρ : Assignment F) (l : LinComb F) (v : Variable) (h : ∀ e ∈ l, e.1 = v) :
    val ρ l = (l.map Prod.snd).sum * ρ v := by
  induction l with
  | nil => simp
  | cons t l ih =>
    have h1 : t.1 = v := h t (by simp)
    have h2 := ih fun e he => h e (by simp [he])
    simp only [val_cons, h1, h2, List.map_cons, List.sum_cons]; ring

theorem val_of_trySummand [DecidableEq F] {l : LinComb F} {v : Variable} {k : F} (h : trySummand l = some (v, k))
    (ρ : Assignment F) : val ρ l = k * ρ v := by
  unfold trySummand at h
  split at h
  · simp at h
  · rename_i first c tl
    split at h
    · rename_i hall
      simp only [Option.some.injEq, Prod.mk.injEq] at h
      obtain ⟨rfl, rfl⟩ := h
      rw [foldl_acc, zero_add]
      apply val_of_all_eq
      simpa using hall
    · simp at h

theorem trySummand_all [DecidableEq F] {l : LinComb F} {v : Variable} {k : F} (h : trySummand l = some (v, k)) :
    l ≠ [] ∧ ∀ e ∈ l, e.1 = v := by
  unfold trySummand at h
  split at h
  · simp at h
  · rename_i first c tl
    split at h
    · rename_i hall
      simp only [Option.some.injEq, Prod.mk.injEq] at h
      obtain ⟨rfl, rfl⟩ := h
      refine ⟨by simp, ?_⟩
      simpa using hall
    · simp at h

theorem val_of_tryConstant [DecidableEq F] {l : LinComb F} {k : F} (h : tryConstant l = some k)
    (ρ : Assignment F) (h1 : OneIsOne ρ) : val ρ l = k := by
  unfold tryConstant at h
  split at h
  · simp at h; simp [h]
  · rename_i first c tl
    split at h
    · simp at h
    · rename_i hf
      split at h
      · rename_i hall
        simp only [Option.some.injEq] at h
        subst h
        rw [foldl_acc, zero_add, val_of_all_eq ρ _ first (by simpa using hall)]
        have : first = Variable.one := Decidable.byContradiction hf
        rw [this, h1, mul_one]
      · simp at h

/-! ### Canonical form -/

theorem coeff_of_not_mem (l : LinComb F) (x : Variable) (h : x ∉ l.map Prod.fst) : coeff l x = 0 := by
  induction l with
  | nil => simp
  | cons t l ih =>
    simp only [List.map_cons, List.mem_cons, not_or] at h
    simp only [coeff_cons, ih h.2, add_zero]
    rw [if_neg]; exact fun e => h.1 e.symm

/-- Coefficient in a sorted map is the lookup. -/
theorem coeff_sorted {m : SMap F} (hm : m.Sorted) (x : Variable) : coeff m x = (m.get x).getD 0 := by
  induction m with
  | nil => simp
  | cons hd m ih =>
    obtain ⟨k, v⟩ := hd
    have hs := SMap.sorted_cons.1 hm
    simp only [coeff_cons, SMap.get]
    by_cases h : x = k
    · subst h
      simp only [if_true, Option.getD_some]
      have : x ∉ m.map Prod.fst := fun hc => Int.lt_irrefl _ (hs.1 _ hc)
      rw [coeff_of_not_mem _ _ this, add_zero]
    · have : ¬ k = x := fun e => h e.symm
      simp [h, this, ih hs.2]

/-- No zero coefficients in a map. -/
def NoZero (m : SMap F) : Prop := ∀ x v, m.get x = some v → v ≠ 0

variable [DecidableEq F]

theorem canonStep_spec {acc : SMap F} (t : Variable × F) (hs : acc.Sorted) (hz : NoZero acc) :
    (canonStep acc t).Sorted ∧ NoZero (canonStep acc t) ∧
      ∀ x, coeff (canonStep acc t) x = coeff acc x + if t.1 = x then t.2 else 0 := by
  unfold canonStep
  split
  · rename_i h0
    split
    · rename_i o ho
      split
      · rename_i hne
        refine ⟨SMap.sorted_insert hs _ _, ?_, ?_⟩
        · intro x v hx
          rw [SMap.get_insert] at hx
          split at hx
          · simp only [Option.some.injEq] at hx; rw [← hx]; exact hne
          · exact hz x v hx
        · intro x
          rw [coeff_sorted (SMap.sorted_insert hs _ _), coeff_sorted hs, SMap.get_insert]
          by_cases hx : t.1 = x
          · subst hx; simp [ho]
          · have : ¬ x = t.1 := fun e => hx e.symm
            simp [hx, this]
      · rename_i he
        have he : o + t.2 = 0 := by simpa using he
        refine ⟨SMap.sorted_erase hs _, ?_, ?_⟩
        · intro x v hx
          rw [SMap.get_erase hs] at hx
          split at hx
          · simp at hx
          · exact hz x v hx
        · intro x
          rw [coeff_sorted (SMap.sorted_erase hs _), coeff_sorted hs, SMap.get_erase hs]
          by_cases hx : t.1 = x
          · subst hx; simp [ho, he]
          · have : ¬ x = t.1 := fun e => hx e.symm
            simp [hx, this]
    · rename_i ho
      refine ⟨SMap.sorted_insert hs _ _, ?_, ?_⟩
      · intro x v hx
        rw [SMap.get_insert] at hx
        split at hx
        · simp only [Option.some.injEq] at hx; rw [← hx]; exact h0
        · exact hz x v hx
      · intro x
        rw [coeff_sorted (SMap.sorted_insert hs _ _), coeff_sorted hs, SMap.get_insert]
        by_cases hx : t.1 = x
        · subst hx; simp [ho]
        · have : ¬ x = t.1 := fun e => hx e.symm
          simp [hx, this]
  · rename_i h0
    have h0 : t.2 = 0 := by simpa using h0
    refine ⟨hs, hz, fun x => ?_⟩
    simp [h0]

theorem canon_spec_aux (l : LinComb F) (acc : SMap F) (hs : acc.Sorted) (hz : NoZero acc) :
    (l.foldl canonStep acc).Sorted ∧ NoZero (l.foldl canonStep acc) ∧
      ∀ x, coeff (l.foldl canonStep acc) x = coeff acc x + coeff l x := by
  induction l generalizing acc with
  | nil => simp [hs, hz]
  | cons t l ih =>
    obtain ⟨a, b, c⟩ := canonStep_spec t hs hz
    obtain ⟨a', b', c'⟩ := ih _ a b
    refine ⟨a', b', fun x => ?_⟩
    simp only [List.foldl_cons, c', c, coeff_cons]
    ring

theorem canon_spec (l : LinComb F) :
    (intoCanonical l).Sorted ∧ NoZero (intoCanonical l) ∧ ∀ x, coeff (intoCanonical l) x = coeff l x := by
  have h := canon_spec_aux l [] SMap.sorted_nil (by intro x v h; simp at h)
  refine ⟨h.1, h.2.1, fun x => ?_⟩
  rw [intoCanonical, h.2.2]; simp

theorem val_canonStep {acc : SMap F} (t : Variable × F) (hs : acc.Sorted) (ρ : Assignment F) :
    val ρ (canonStep acc t) = val ρ acc + t.2 * ρ t.1 := by
  have hins : ∀ (m : SMap F), m.Sorted → ∀ x v, val ρ (m.insert x v) = val ρ m - (m.get x).getD 0 * ρ x + v * ρ x := by
    intro m
    induction m with
    | nil => intro _ x v; simp [SMap.insert]
    | cons hd m ih =>
      obtain ⟨k, w⟩ := hd
      intro hm x v
      have hms := SMap.sorted_cons.1 hm
      simp only [SMap.insert, SMap.get]
      split
      · rename_i hlt
        have hne : ¬ x = k := fun e => by rw [e] at hlt; exact Int.lt_irrefl _ hlt
        have hnone : SMap.get m x = none := (SMap.get_eq_none_iff _ _).2 fun hc =>
          Int.lt_irrefl _ (Int.lt_trans hlt (hms.1 _ hc))
        simp [hne, hnone]; ring
      · split
        · rename_i h; subst h; simp; ring
        · simp only [val_cons, ih hms.2]; ring
  have her : ∀ (m : SMap F), m.Sorted → ∀ x, val ρ (m.erase x) = val ρ m - (m.get x).getD 0 * ρ x := by
    intro m
    induction m with
    | nil => intro _ x; simp [SMap.erase]
    | cons hd m ih =>
      obtain ⟨k, w⟩ := hd
      intro hm x
      have hms := SMap.sorted_cons.1 hm
      simp only [SMap.erase, SMap.get]
      split
      · rename_i h; subst h; simp
      · simp only [val_cons, ih hms.2]; ring
  unfold canonStep
  split
  · split
    · rename_i o ho
      split
      · rw [hins acc hs]; simp only [ho, Option.getD_some]; ring
      · rename_i he
        have he : o + t.2 = 0 := by simpa using he
        rw [her acc hs]; simp only [ho, Option.getD_some]
        linear_combination -(ρ t.1) * he
    · rename_i ho
      rw [hins acc hs]; simp [ho]
  · rename_i h0
    have h0 : t.2 = 0 := by simpa using h0
    simp [h0]

theorem val_reduce (ρ : Assignment F) (l : LinComb F) : val ρ (reduce l) = val ρ l := by
  have aux : ∀ (l : LinComb F) (acc : SMap F), acc.Sorted → NoZero acc →
      val ρ (l.foldl canonStep acc) = val ρ acc + val ρ l := by
    intro l
    induction l with
    | nil => intro acc _ _; simp
    | cons t l ih =>
      intro acc hs hz
      obtain ⟨a, b, _⟩ := canonStep_spec t hs hz
      rw [List.foldl_cons, ih _ a b, val_canonStep t hs, val_cons]; ring
  rw [reduce, intoCanonical, aux l [] SMap.sorted_nil (by intro x v h; simp at h)]; simp

omit [DecidableEq F] in
/-- The canonical form is determined by the coefficients. -/
theorem canonical_unique {m n : SMap F} (hm : m.Sorted) (hn : n.Sorted) (zm : NoZero m) (zn : NoZero n)
    (h : ∀ x, coeff m x = coeff n x) : m = n := by
  apply SMap.ext hm hn
  intro x
  have hx := h x
  rw [coeff_sorted hm, coeff_sorted hn] at hx
  cases h1 : m.get x with
  | none =>
    cases h2 : n.get x with
    | none => rfl
    | some w => simp [h1, h2] at hx; exact absurd hx.symm (zn x w h2)
  | some v =>
    cases h2 : n.get x with
    | none => simp [h1, h2] at hx; exact absurd hx (zm x v h1)
    | some w => simp [h1, h2] at hx; rw [hx]

theorem reduce_eq_iff (a b : LinComb F) : reduce a = reduce b ↔ ∀ x, coeff a x = coeff b x := by
  obtain ⟨sa, za, ca⟩ := canon_spec a
  obtain ⟨sb, zb, cb⟩ := canon_spec b
  constructor
  · intro h x
    rw [← ca x, ← cb x]; exact congrArg (fun l => coeff l x) h
  · intro h
    exact canonical_unique sa sb za zb fun x => (ca x).trans ((h x).trans (cb x).symm)

omit [DecidableEq F] in
theorem val_single (l : LinComb F) (x : Variable) : val (fun y => if y = x then 1 else 0) l = coeff l x := by
  simp [val, coeff]

theorem reduce_eq_iff_val (a b : LinComb F) : reduce a = reduce b ↔ ∀ ρ, val ρ a = val ρ b := by
  constructor
  · intro h ρ; rw [← val_reduce ρ a, ← val_reduce ρ b, h]
  · intro h
    rw [reduce_eq_iff]
    intro x
    rw [← val_single, ← val_single, h]

omit [DecidableEq F] in
theorem val_congr {ρ σ : Assignment F} {l : LinComb F} (h : ∀ x ∈ l.map Prod.fst, ρ x = σ x) :
    val ρ l = val σ l := by
  induction l with
  | nil => simp
  | cons t l ih =>
    simp only [List.map_cons, List.mem_cons] at h
    rw [val_cons, val_cons, ih fun x hx => h x (Or.inr hx), h t.1 (Or.inl rfl)]

end LinComb

namespace QuadComb
variable [DecidableEq F]

theorem val_reduce (ρ : Assignment F) (q : QuadComb F) : q.reduce.val ρ = q.val ρ := by
  simp [reduce, val, LinComb.val_reduce]

omit [DecidableEq F] in
theorem val_ofLin (ρ : Assignment F) (l : LinComb F) (h1 : OneIsOne ρ) : (ofLin l).val ρ = l.val ρ := by
  have h1' : ρ Variable.one = 1 := h1
  simp [ofLin, val, LinComb.val_one, h1']

theorem val_tryLinear {q : QuadComb F} {l : LinComb F} (h : q.tryLinear = some l) (ρ : Assignment F)
    (h1 : OneIsOne ρ) : l.val ρ = q.val ρ := by
  unfold tryLinear at h
  split at h
  · rename_i hz
    simp only [Option.some.injEq] at h
    subst h
    simp only [LinComb.isZero, Bool.or_eq_true, List.isEmpty_iff] at hz
    rcases hz with hz | hz <;> simp [val, hz, LinComb.zero]
  · split at h
    · rename_i k hk
      simp only [Option.some.injEq] at h
      subst h
      rw [LinComb.val_smul, val, LinComb.val_of_tryConstant hk ρ h1, mul_comm]
    · split at h
      · rename_i k hk
        simp only [Option.some.injEq] at h
        subst h
        rw [LinComb.val_smul, val, LinComb.val_of_tryConstant hk ρ h1]
      · simp at h

end QuadComb
end Zok
