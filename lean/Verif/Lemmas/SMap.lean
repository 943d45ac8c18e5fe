import Verif.Model.SMap

namespace Zok.SMap
variable {V : Type _}

@[simp] theorem get_nil (x : Variable) : get ([] : SMap V) x = none := rfl

theorem get_cons (k : Variable) (v : V) (m : SMap V) (x : Variable) :
    get ((k, v) :: m) x = if x = k then some v else get m x := rfl

theorem get_insert (m : SMap V) (x : Variable) (v : V) (y : Variable) :
    get (insert m x v) y = if y = x then some v else get m y := by
  induction m with
  | nil => simp [insert, get]
  | cons hd m ih =>
    obtain ⟨k, w⟩ := hd
    simp only [insert]
    split
    · simp [get]
    · split
      · rename_i h1 h2; subst h2; simp only [get]; split <;> simp
      · rename_i h1 h2
        simp only [get, ih]
        by_cases h : y = k
        · subst h
          have : ¬ y = x := fun e => h2 e.symm
          simp [this]
        · simp [h]

@[simp] theorem get_insert_self (m : SMap V) (x : Variable) (v : V) : get (insert m x v) x = some v := by
  simp [get_insert]

theorem get_insert_ne (m : SMap V) {x y : Variable} (v : V) (h : y ≠ x) :
    get (insert m x v) y = get m y := by simp [get_insert, h]

theorem mem_of_get {m : SMap V} {x : Variable} {v : V} (h : get m x = some v) : (x, v) ∈ m := by
  induction m with
  | nil => simp at h
  | cons hd m ih =>
    obtain ⟨k, w⟩ := hd
    simp only [get] at h
    split at h
    · simp_all
    · exact List.mem_cons_of_mem _ (ih h)

theorem get_isSome_iff (m : SMap V) (x : Variable) : (get m x).isSome ↔ x ∈ keys m := by
  induction m with
  | nil => simp [keys]
  | cons hd m ih =>
    obtain ⟨k, w⟩ := hd
    simp only [get, keys, List.map_cons, List.mem_cons] at *
    split
    · simp_all
    · simp_all

theorem get_eq_none_iff (m : SMap V) (x : Variable) : get m x = none ↔ x ∉ keys m := by
  rw [← get_isSome_iff]; cases get m x <;> simp

theorem mem_insert_keys (m : SMap V) (x : Variable) (v : V) (y : Variable) :
    y ∈ keys (insert m x v) ↔ y = x ∨ y ∈ keys m := by
  rw [← get_isSome_iff, ← get_isSome_iff, get_insert]
  split <;> simp_all

theorem sorted_nil : Sorted ([] : SMap V) := List.Pairwise.nil

theorem sorted_cons {k : Variable} {v : V} {m : SMap V} :
    Sorted ((k, v) :: m) ↔ (∀ y ∈ keys m, k < y) ∧ Sorted m := by
  simp only [Sorted, List.pairwise_cons, keys, List.mem_map]
  constructor
  · rintro ⟨h, h'⟩; refine ⟨?_, h'⟩; rintro y ⟨a, ha, rfl⟩; exact h a ha
  · rintro ⟨h, h'⟩; exact ⟨fun a ha => h _ ⟨a, ha, rfl⟩, h'⟩

theorem sorted_insert {m : SMap V} (hm : Sorted m) (x : Variable) (v : V) : Sorted (insert m x v) := by
  induction m with
  | nil => simp [insert, Sorted]
  | cons hd m ih =>
    obtain ⟨k, w⟩ := hd
    have hs := sorted_cons.1 hm
    simp only [insert]
    split
    · rename_i h
      refine sorted_cons.2 ⟨?_, hm⟩
      intro y hy
      simp only [keys, List.map_cons, List.mem_cons] at hy
      rcases hy with rfl | hy
      · exact h
      · exact Int.lt_trans h (hs.1 y hy)
    · split
      · rename_i h1 h2; subst h2; exact sorted_cons.2 hs
      · rename_i h1 h2
        refine sorted_cons.2 ⟨?_, ih hs.2⟩
        intro y hy
        rcases (mem_insert_keys m x v y).1 hy with rfl | hy
        · exact Int.lt_iff_le_and_ne.2 ⟨Int.not_lt.1 h1, fun e => h2 e.symm⟩
        · exact hs.1 y hy

theorem keys_erase_subset (m : SMap V) (x y : Variable) (h : y ∈ keys (erase m x)) : y ∈ keys m := by
  induction m with
  | nil => simp [erase, keys] at h
  | cons hd m ih =>
    obtain ⟨k, w⟩ := hd
    simp only [erase] at h
    split at h
    · exact List.mem_cons_of_mem _ h
    · simp only [keys, List.map_cons, List.mem_cons] at h ⊢
      rcases h with h | h
      · exact Or.inl h
      · exact Or.inr (ih h)

theorem sorted_erase {m : SMap V} (hm : Sorted m) (x : Variable) : Sorted (erase m x) := by
  induction m with
  | nil => simpa [erase] using hm
  | cons hd m ih =>
    obtain ⟨k, w⟩ := hd
    have hs := sorted_cons.1 hm
    simp only [erase]
    split
    · exact hs.2
    · exact sorted_cons.2 ⟨fun y hy => hs.1 y (keys_erase_subset m x y hy), ih hs.2⟩

theorem get_erase {m : SMap V} (hm : Sorted m) (x y : Variable) :
    get (erase m x) y = if y = x then none else get m y := by
  induction m with
  | nil => simp [erase]
  | cons hd m ih =>
    obtain ⟨k, w⟩ := hd
    have hs := sorted_cons.1 hm
    simp only [erase]
    split
    · rename_i h; subst h
      by_cases hy : y = x
      · subst hy
        simp only [if_true]
        rw [get_eq_none_iff]
        intro hc
        exact Int.lt_irrefl _ (hs.1 _ hc)
      · simp [hy, get]
    · rename_i h
      simp only [get, ih hs.2]
      by_cases hk : y = k
      · subst hk
        have : ¬ y = x := fun e => h e.symm
        simp [this]
      · simp [hk]

theorem get_of_mem {m : SMap V} (hm : Sorted m) {x : Variable} {v : V} (h : (x, v) ∈ m) :
    get m x = some v := by
  induction m with
  | nil => simp at h
  | cons hd m ih =>
    obtain ⟨k, w⟩ := hd
    have hs := sorted_cons.1 hm
    simp only [List.mem_cons, Prod.mk.injEq] at h
    rcases h with ⟨rfl, rfl⟩ | h
    · simp [get]
    · have : k < x := hs.1 x (List.mem_map.2 ⟨_, h, rfl⟩)
      have hne : ¬ x = k := by intro e; rw [e] at this; exact Int.lt_irrefl _ this
      simp [get, hne, ih hs.2 h]

theorem mem_iff_get {m : SMap V} (hm : Sorted m) (x : Variable) (v : V) :
    (x, v) ∈ m ↔ get m x = some v := ⟨get_of_mem hm, mem_of_get⟩

/-- Two ordered maps with the same lookups are the same list. -/
theorem ext {m n : SMap V} (hm : Sorted m) (hn : Sorted n) (h : ∀ x, get m x = get n x) : m = n := by
  induction m generalizing n with
  | nil =>
    cases n with
    | nil => rfl
    | cons hd n => obtain ⟨k, v⟩ := hd; have := h k; simp [get] at this
  | cons hd m ih =>
    obtain ⟨k, v⟩ := hd
    cases n with
    | nil => have := h k; simp [get] at this
    | cons hd' n =>
      obtain ⟨k', v'⟩ := hd'
      have hs := sorted_cons.1 hm
      have hs' := sorted_cons.1 hn
      have hk : k = k' := by
        have h1 := h k
        have h2 := h k'
        simp only [get, if_true] at h1 h2
        refine Decidable.byContradiction fun hne => ?_
        have hne' : ¬ k' = k := fun e => hne e.symm
        simp only [hne, hne', if_false] at h1 h2
        have a1 : k ∈ keys n := (get_isSome_iff _ _).1 (by rw [← h1]; rfl)
        have a2 : k' ∈ keys m := (get_isSome_iff _ _).1 (by rw [h2]; rfl)
        have b1 := hs'.1 _ a1
        have b2 := hs.1 _ a2
        exact Int.lt_irrefl _ (Int.lt_trans b1 b2)
      subst hk
      have hv : v = v' := by have := h k; simpa [get] using this
      subst hv
      rw [ih hs.2 hs'.2]
      intro x
      by_cases hx : x = k
      · subst hx
        have h1 : get m x = none := (get_eq_none_iff _ _).2 fun hc => Int.lt_irrefl _ (hs.1 _ hc)
        have h2 : get n x = none := (get_eq_none_iff _ _).2 fun hc => Int.lt_irrefl _ (hs'.1 _ hc)
        rw [h1, h2]
      · have := h x; simpa [get, hx] using this

end Zok.SMap
