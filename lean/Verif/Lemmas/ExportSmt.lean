import Verif.Lemmas.Export
import Verif.Props.Display

namespace Zok.Export
variable {p : ℕ} {Z : Type _}

theorem ints_eq (σ : List Char → ℤ) (l : List SExp) (xs : List ℤ) (h : l.map (SExp.int σ) = xs.map some) :
    SExp.ints σ l = some xs := by
  induction l generalizing xs with
  | nil => cases xs with
    | nil => rfl
    | cons => simp at h
  | cons e l ih => cases xs with
    | nil => simp at h
    | cons x xs =>
      simp only [List.map_cons, List.cons.injEq] at h
      simp only [SExp.ints, h.1, ih xs h.2]

/-- The integer value of a combination. -/
def linInt (σ : List Char → ℤ) (l : LinComb (ZMod p)) : ℤ := (l.map fun t => σ t.1.display * (t.2.val : ℤ)).sum

theorem int_term (σ : List Char → ℤ) (t : Variable × ZMod p) :
    SExp.int σ (.app "*" [smtVar t.1, .num t.2.val]) = some (σ t.1.display * (t.2.val : ℤ)) := by
  simp [SExp.int, SExp.ints, smtVar]

theorem int_smtLin (σ : List Char → ℤ) (l : LinComb (ZMod p)) : SExp.int σ (smtLin l) = some (linInt σ l) := by
  unfold smtLin linInt
  match l with
  | [] => simp [SExp.int]
  | [t] =>
    simp only [int_term]
    simp
  | t :: u :: l =>
    simp only [SExp.int]
    rw [ints_eq σ _ ((t :: u :: l).map fun t => σ t.1.display * (t.2.val : ℤ))]
    · simp
    · rw [List.map_map, List.map_map]
      apply List.map_congr_left
      intro a _
      exact int_term σ a

theorem int_smtQuad (σ : List Char → ℤ) (q : QuadComb (ZMod p)) :
    SExp.int σ (smtQuad q) = some (linInt σ q.left * linInt σ q.right) := by
  unfold smtQuad
  simp only [SExp.int]
  rw [ints_eq σ _ [linInt σ q.left, linInt σ q.right] (by simp [int_smtLin])]
  simp

theorem cast_linInt [Fact p.Prime] (σ : List Char → ℤ) (l : LinComb (ZMod p)) :
    ((linInt σ l : ℤ) : ZMod p) = l.val fun v => ((σ v.display : ℤ) : ZMod p) := by
  unfold linInt LinComb.val
  induction l with
  | nil => simp
  | cons t l ih =>
    simp only [List.map_cons, List.sum_cons, Int.cast_add, Int.cast_mul, ih, Int.cast_natCast, Fld.cast_val]
    ring

theorem smtStmts_holds [Fact p.Prime] (σ : List Char → ℤ) (hσ : σ primeName = p) (ss : List (Stmt (ZMod p) Z))
    (es : List SExp) (h : smtStmts ss = some es) :
    (∀ e ∈ es, SExp.EqHolds σ e) ↔ SatAll (fun v => ((σ v.display : ℤ) : ZMod p)) ss := by
  induction ss generalizing es with
  | nil =>
    simp only [smtStmts, Option.some.injEq] at h
    subst h
    simp [SatAll]
  | cons s ss ih =>
    have hcons : ∀ ρ : Assignment (ZMod p), SatAll ρ (s :: ss) ↔ s.Sat ρ ∧ SatAll ρ ss := fun ρ => by unfold SatAll; simp
    rw [hcons]
    cases s with
    | block _ => simp [smtStmts] at h
    | constraint c =>
      simp only [smtStmts] at h
      cases hs : smtStmts ss with
      | none => rw [hs] at h; cases h
      | some es' =>
        rw [hs] at h
        simp only [Option.some.injEq] at h
        subst h
        rw [List.forall_mem_cons, ih es' hs]
        refine and_congr_left fun _ => ?_
        have h1 : SExp.int σ (.app "mod" [smtQuad c.quad, .sym primeName]) =
            some ((linInt σ c.quad.left * linInt σ c.quad.right) % p) := by
          simp only [SExp.int]
          rw [ints_eq σ _ [linInt σ c.quad.left * linInt σ c.quad.right, (p : ℤ)] (by
            simp [int_smtQuad, SExp.int, hσ])]
          simp
        have h2 : SExp.int σ (.app "mod" [smtLin c.lin, .sym primeName]) = some (linInt σ c.lin % p) := by
          simp only [SExp.int]
          rw [ints_eq σ _ [linInt σ c.lin, (p : ℤ)] (by simp [int_smtLin, SExp.int, hσ])]
          simp
        have h3 : SExp.EqHolds σ (.app "=" [.app "mod" [smtQuad c.quad, .sym primeName],
            .app "mod" [smtLin c.lin, .sym primeName]]) ↔
            (linInt σ c.quad.left * linInt σ c.quad.right) % p = linInt σ c.lin % p := by
          simp only [SExp.EqHolds, h1, h2, Option.some.injEq]
          constructor
          · rintro ⟨x, rfl, h⟩; exact h.symm
          · intro h; exact ⟨_, rfl, h.symm⟩
        rw [h3]
        have h4 : (linInt σ c.quad.left * linInt σ c.quad.right) % p = linInt σ c.lin % p ↔
            (((linInt σ c.quad.left * linInt σ c.quad.right : ℤ)) : ZMod p) = ((linInt σ c.lin : ℤ) : ZMod p) :=
          (ZMod.intCast_eq_intCast_iff' _ _ _).symm
        rw [h4, Int.cast_mul, cast_linInt, cast_linInt, cast_linInt]
        constructor
        · intro h; exact .constraint h
        · intro h; cases h; assumption
    | directive d =>
      rw [ih es (by simpa only [smtStmts] using h)]
      exact ⟨fun h => ⟨.directive d, h⟩, fun h => h.2⟩
    | log l =>
      rw [ih es (by simpa only [smtStmts] using h)]
      exact ⟨fun h => ⟨.log l, h⟩, fun h => h.2⟩

theorem smtStmts_isSome (ss : List (Stmt (ZMod p) Z)) : (∃ es, smtStmts ss = some es) ↔ ∀ b, Stmt.block b ∉ ss := by
  induction ss with
  | nil => simp [smtStmts]
  | cons s ss ih =>
    cases s with
    | block b =>
      simp only [smtStmts, reduceCtorEq, exists_false, List.mem_cons, false_iff]
      push Not
      exact ⟨b, Or.inl rfl⟩
    | constraint c =>
      simp only [smtStmts, List.mem_cons, reduceCtorEq, false_or]
      rw [← ih]
      cases smtStmts ss <;> simp
    | directive d =>
      simp only [smtStmts, List.mem_cons, reduceCtorEq, false_or]
      exact ih
    | log l =>
      simp only [smtStmts, List.mem_cons, reduceCtorEq, false_or]
      exact ih

/-! ### Declared names -/

theorem mem_foldl_insert (l : List Variable) (s : VarSet) (v : Variable) :
    v ∈ SMap.keys (l.foldl (fun s v => SMap.insert s v ()) s) ↔ v ∈ SMap.keys s ∨ v ∈ l := by
  induction l generalizing s with
  | nil => simp
  | cons a l ih => rw [List.foldl_cons, ih, SMap.mem_insert_keys, List.mem_cons]; tauto

theorem keys_collectLin_mono {F : Type _} (l : LinComb F) (s : VarSet) (v : Variable) (h : v ∈ SMap.keys s) :
    v ∈ SMap.keys (collectLin s l) := (mem_collectLin l s v).2 (Or.inl h)

mutual
theorem smtVars_mono (st : Stmt (ZMod p) Z) (s : VarSet) (v : Variable) (h : v ∈ SMap.keys s) :
    v ∈ SMap.keys (smtVars st s) := by
  cases st with
  | block ss => simp only [smtVars]; exact smtVarsL_mono ss s v h
  | constraint c => exact keys_collectLin_mono _ _ _ (keys_collectLin_mono _ _ _ (keys_collectLin_mono _ _ _ h))
  | directive d =>
    simp only [smtVars]
    rw [mem_foldl_insert]
    left
    have : ∀ (qs : List (QuadComb (ZMod p))) (s : VarSet), v ∈ SMap.keys s →
        v ∈ SMap.keys (qs.foldl (fun s q => collectLin (collectLin s q.left) q.right) s) := by
      intro qs
      induction qs with
      | nil => intro s h; exact h
      | cons q qs ih => intro s h; exact ih _ (keys_collectLin_mono _ _ _ (keys_collectLin_mono _ _ _ h))
    exact this _ _ h
  | log l =>
    simp only [smtVars]
    have h1 : ∀ (ls : List (LinComb (ZMod p))) (s : VarSet), v ∈ SMap.keys s → v ∈ SMap.keys (ls.foldl collectLin s) := by
      intro ls
      induction ls with
      | nil => intro s h; exact h
      | cons q qs ih => intro s h; exact ih _ (keys_collectLin_mono _ _ _ h)
    have h2 : ∀ (ls : List (List (LinComb (ZMod p)))) (s : VarSet), v ∈ SMap.keys s →
        v ∈ SMap.keys (ls.foldl (fun s e => e.foldl collectLin s) s) := by
      intro ls
      induction ls with
      | nil => intro s h; exact h
      | cons q qs ih => intro s h; exact ih _ (h1 _ _ h)
    exact h2 _ _ h
theorem smtVarsL_mono (ss : List (Stmt (ZMod p) Z)) (s : VarSet) (v : Variable) (h : v ∈ SMap.keys s) :
    v ∈ SMap.keys (smtVarsL ss s) := by
  cases ss with
  | nil => exact h
  | cons st ss =>
    simp only [smtVarsL]
    exact smtVarsL_mono ss _ v (smtVars_mono st s v h)
end

theorem mem_smtVarsL (ss : List (Stmt (ZMod p) Z)) (s : VarSet) (v : Variable) (h : v ∈ constraintVars ss) :
    v ∈ SMap.keys (smtVarsL ss s) := by
  induction ss generalizing s with
  | nil => simp [constraintVars] at h
  | cons st ss ih =>
    simp only [smtVarsL]
    cases st with
    | constraint c =>
      simp only [constraintVars, List.mem_append] at h
      rcases h with ((h | h) | h) | h
      · refine smtVarsL_mono ss _ v ?_
        simp only [smtVars]
        exact keys_collectLin_mono _ _ _ (keys_collectLin_mono _ _ _ ((mem_collectLin _ _ _).2 (Or.inr h)))
      · refine smtVarsL_mono ss _ v ?_
        simp only [smtVars]
        exact keys_collectLin_mono _ _ _ ((mem_collectLin _ _ _).2 (Or.inr h))
      · refine smtVarsL_mono ss _ v ?_
        simp only [smtVars]
        exact (mem_collectLin _ _ _).2 (Or.inr h)
      · exact ih _ h
    | block b => exact ih _ (by simpa only [constraintVars] using h)
    | directive b => exact ih _ (by simpa only [constraintVars] using h)
    | log b => exact ih _ (by simpa only [constraintVars] using h)

theorem names_smtLin (l : LinComb (ZMod p)) (s : List Char) (h : s ∈ (smtLin l).names) :
    ∃ v ∈ l.map Prod.fst, s = v.display := by
  have key : ∀ l : LinComb (ZMod p), s ∈ SExp.namesL (l.map fun t => .app "*" [smtVar t.1, .num t.2.val]) →
      ∃ v ∈ l.map Prod.fst, s = v.display := by
    intro l
    induction l with
    | nil => intro h; simp [SExp.namesL] at h
    | cons t l ih =>
      intro h
      simp only [List.map_cons, SExp.namesL, List.mem_append, SExp.names, smtVar, List.append_nil, List.mem_singleton] at h
      rcases h with h | h
      · exact ⟨t.1, by simp, h⟩
      · obtain ⟨v, hv, e⟩ := ih h
        exact ⟨v, by simp only [List.map_cons, List.mem_cons]; exact Or.inr hv, e⟩
  unfold smtLin at h
  match l with
  | [] => simp [SExp.names] at h
  | [t] => exact key [t] (by simpa [SExp.names, SExp.namesL] using h)
  | t :: u :: l => exact key (t :: u :: l) (by simpa only [SExp.names] using h)

theorem names_smtStmts (ss : List (Stmt (ZMod p) Z)) (es : List SExp) (h : smtStmts ss = some es) (s : List Char)
    (hs : s ∈ SExp.namesL es) : s = primeName ∨ ∃ v ∈ constraintVars ss, s = v.display := by
  induction ss generalizing es with
  | nil =>
    simp only [smtStmts, Option.some.injEq] at h
    subst h
    simp [SExp.namesL] at hs
  | cons st ss ih =>
    cases st with
    | block _ => simp [smtStmts] at h
    | constraint c =>
      simp only [smtStmts] at h
      cases hss : smtStmts ss with
      | none => rw [hss] at h; cases h
      | some es' =>
        rw [hss] at h
        simp only [Option.some.injEq] at h
        subst h
        simp only [SExp.namesL, SExp.names, smtQuad, List.append_nil, List.mem_append, List.mem_singleton] at hs
        simp only [constraintVars, List.mem_append]
        rcases hs with (((h | h) | h) | h | h) | h
        · obtain ⟨v, hv, e⟩ := names_smtLin _ _ h
          exact Or.inr ⟨v, Or.inl (Or.inl (Or.inl hv)), e⟩
        · obtain ⟨v, hv, e⟩ := names_smtLin _ _ h
          exact Or.inr ⟨v, Or.inl (Or.inl (Or.inr hv)), e⟩
        · exact Or.inl h
        · obtain ⟨v, hv, e⟩ := names_smtLin _ _ h
          exact Or.inr ⟨v, Or.inl (Or.inr hv), e⟩
        · exact Or.inl h
        · rcases ih es' hss h with h | ⟨v, hv, e⟩
          · exact Or.inl h
          · exact Or.inr ⟨v, Or.inr hv, e⟩
    | directive d =>
      simp only [constraintVars]
      exact ih es (by simpa only [smtStmts] using h) hs
    | log l =>
      simp only [constraintVars]
      exact ih es (by simpa only [smtStmts] using h) hs

end Zok.Export
