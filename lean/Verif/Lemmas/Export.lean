import Verif.Spec.Export
import Verif.Lemmas.Serialize
import Verif.Lemmas.Interp

namespace Zok.Export
variable {F Z : Type _}

/-! ### Wires -/

/-- The map is the numbering of a list without repetition. -/
structure Wires (m : WireMap) (vs : List Variable) : Prop where
  eq : m = vs.zipIdx
  nodup : vs.Nodup

theorem lookup_zipIdx (vs : List Variable) (k : ℕ) (v : Variable) (i : ℕ) (nd : vs.Nodup) :
    (vs.zipIdx k).lookup v = some i ↔ ∃ j, i = k + j ∧ vs[j]? = some v := by
  induction vs generalizing k with
  | nil => simp
  | cons x vs ih =>
    rw [List.zipIdx_cons, List.lookup_cons]
    by_cases h : v = x
    · subst h
      simp only [beq_self_eq_true]
      constructor
      · intro h; simp only [Option.some.injEq] at h; exact ⟨0, by omega, rfl⟩
      · rintro ⟨j, rfl, hj⟩
        cases j with
        | zero => rfl
        | succ j =>
          simp only [List.getElem?_cons_succ] at hj
          exact absurd (List.mem_of_getElem? hj) (List.nodup_cons.1 nd).1
    · have : (v == x) = false := by simpa using h
      simp only [this]
      rw [ih (k + 1) (List.nodup_cons.1 nd).2]
      constructor
      · rintro ⟨j, rfl, hj⟩; exact ⟨j + 1, by omega, hj⟩
      · rintro ⟨j, rfl, hj⟩
        cases j with
        | zero => simp only [List.getElem?_cons_zero, Option.some.injEq] at hj; exact absurd hj.symm h
        | succ j => exact ⟨j, by omega, hj⟩

theorem Wires.lookup {m : WireMap} {vs : List Variable} (h : Wires m vs) (v : Variable) (i : ℕ) :
    m.lookup v = some i ↔ vs[i]? = some v := by
  rw [h.eq, lookup_zipIdx _ _ _ _ h.nodup]
  simp

theorem Wires.lookup_none {m : WireMap} {vs : List Variable} (h : Wires m vs) (v : Variable) :
    m.lookup v = none ↔ v ∉ vs := by
  constructor
  · intro hn hv
    obtain ⟨i, hi⟩ := List.getElem?_of_mem hv
    rw [← h.lookup, hn] at hi
    cases hi
  · intro hv
    cases hl : m.lookup v with
    | none => rfl
    | some i => exact absurd (List.mem_of_getElem? ((h.lookup v i).1 hl)) hv

theorem Wires.length {m : WireMap} {vs : List Variable} (h : Wires m vs) : m.length = vs.length := by
  rw [h.eq, List.length_zipIdx]

/-- Append the elements that are new. -/
def addNew (vs ws : List Variable) : List Variable := ws.foldl (fun vs w => if w ∈ vs then vs else vs ++ [w]) vs

theorem provide_wires {m : WireMap} {vs : List Variable} (h : Wires m vs) (v : Variable) :
    Wires (provide m v) (if v ∈ vs then vs else vs ++ [v]) := by
  unfold provide
  cases hl : m.lookup v with
  | some i =>
    have := List.mem_of_getElem? ((h.lookup v i).1 hl)
    rw [if_pos this]
    exact h
  | none =>
    have := (h.lookup_none v).1 hl
    rw [if_neg this]
    refine ⟨?_, ?_⟩
    · rw [List.zipIdx_append, ← h.eq, h.length]; simp
    · rw [List.nodup_append]
      refine ⟨h.nodup, by simp, ?_⟩
      simp only [List.mem_singleton, forall_eq]
      rintro a ha rfl
      exact this ha

theorem provides_wires {m : WireMap} {vs : List Variable} (h : Wires m vs) (ws : List Variable) :
    Wires (ws.foldl provide m) (addNew vs ws) := by
  unfold addNew
  induction ws generalizing m vs with
  | nil => exact h
  | cons w ws ih => exact ih (provide_wires h w)

theorem addNew_nodup {vs ws : List Variable} (h : (vs ++ ws).Nodup) : addNew vs ws = vs ++ ws := by
  unfold addNew
  induction ws generalizing vs with
  | nil => simp
  | cons w ws ih =>
    have hw : w ∉ vs := by
      rw [List.nodup_append] at h
      exact fun hv => h.2.2 w hv w List.mem_cons_self rfl
    rw [List.foldl_cons, if_neg hw, ih (by simpa using h)]
    simp

theorem addNew_filter (vs ws : List Variable) (h : ws.Nodup) :
    addNew vs ws = vs ++ ws.filter fun w => w ∉ vs := by
  unfold addNew
  induction ws generalizing vs with
  | nil => simp
  | cons w ws ih =>
    rw [List.foldl_cons]
    have hw := List.nodup_cons.1 h
    by_cases hv : w ∈ vs
    · rw [if_pos hv, ih _ hw.2, List.filter_cons_of_neg (by simpa using hv)]
    · rw [if_neg hv, ih _ hw.2, List.filter_cons_of_pos (by simpa using hv)]
      simp only [List.mem_append, List.mem_singleton, List.append_assoc, List.singleton_append]
      congr 2
      apply List.filter_congr
      intro x hx
      have : x ≠ w := fun e => hw.1 (e ▸ hx)
      simp [this]

theorem variablesList_wires {m : WireMap} {vs : List Variable} (h : Wires m vs) : variablesList m = vs := by
  unfold variablesList
  apply List.ext_getElem?
  intro i
  rw [List.getElem?_map]
  by_cases hi : i < m.length
  · rw [List.getElem?_range hi]
    simp only [Option.map_some]
    have hi' : i < vs.length := by rw [← h.length]; exact hi
    have hf : m.find? (fun e => e.2 = i) = some (vs[i], i) := by
      have hmem : (vs[i], i) ∈ m := by
        rw [h.eq]
        exact List.mk_mem_zipIdx_iff_getElem?.2 (List.getElem?_eq_getElem hi')
      cases hf : m.find? (fun e => e.2 = i) with
      | none =>
        rw [List.find?_eq_none] at hf
        exact absurd (by simp) (hf _ hmem)
      | some e =>
        obtain ⟨x, j⟩ := e
        have h1 := List.find?_some hf
        have h2 := List.mem_of_find?_eq_some hf
        simp only [decide_eq_true_eq] at h1
        subst h1
        rw [h.eq] at h2
        have := List.mk_mem_zipIdx_iff_getElem?.1 h2
        rw [List.getElem?_eq_getElem hi'] at this
        cases this
        rfl
    rw [hf]
    simp only [Option.map_some, Option.getD_some]
    rw [List.getElem?_eq_getElem hi']
  · rw [List.getElem?_eq_none (by simpa using hi), List.getElem?_eq_none (by rw [← h.length]; omega)]
    rfl

/-! ### Collected variables -/

theorem mem_collectLin (l : LinComb F) (s : VarSet) (v : Variable) :
    v ∈ SMap.keys (collectLin s l) ↔ v ∈ SMap.keys s ∨ v ∈ l.map Prod.fst := by
  unfold collectLin
  induction l generalizing s with
  | nil => simp
  | cons t l ih =>
    rw [List.foldl_cons, ih, SMap.mem_insert_keys]
    simp only [List.map_cons, List.mem_cons]
    tauto

theorem sorted_collectLin (l : LinComb F) (s : VarSet) (h : SMap.Sorted s) : SMap.Sorted (collectLin s l) := by
  unfold collectLin
  induction l generalizing s with
  | nil => exact h
  | cons t l ih => exact ih _ (SMap.sorted_insert h _ _)

/-- The variables of a constraint. -/
def conVars (c : Constraint F) : List Variable :=
  c.quad.left.map Prod.fst ++ c.quad.right.map Prod.fst ++ c.lin.map Prod.fst

theorem collect_spec (cs : List (Constraint F)) :
    SMap.Sorted (collect cs) ∧ ∀ v, v ∈ SMap.keys (collect cs) ↔ ∃ c ∈ cs, v ∈ conVars c := by
  unfold collect
  suffices H : ∀ s : VarSet, SMap.Sorted s → SMap.Sorted (cs.foldl (fun s c =>
      collectLin (collectLin (collectLin s c.quad.left) c.quad.right) c.lin) s) ∧
      ∀ v, v ∈ SMap.keys (cs.foldl (fun s c => collectLin (collectLin (collectLin s c.quad.left) c.quad.right) c.lin) s) ↔
        v ∈ SMap.keys s ∨ ∃ c ∈ cs, v ∈ conVars c by
    obtain ⟨h1, h2⟩ := H [] SMap.sorted_nil
    exact ⟨h1, fun v => by rw [h2]; simp [SMap.keys]⟩
  intro s hs
  induction cs generalizing s with
  | nil => exact ⟨hs, by simp⟩
  | cons c cs ih =>
    rw [List.foldl_cons]
    obtain ⟨h1, h2⟩ := ih _ (sorted_collectLin c.lin _ (sorted_collectLin c.quad.right _ (sorted_collectLin c.quad.left _ hs)))
    refine ⟨h1, fun v => ?_⟩
    rw [h2, mem_collectLin, mem_collectLin, mem_collectLin]
    simp only [List.mem_cons, exists_eq_or_imp, List.mem_append]
    rw [show v ∈ conVars c ↔ (v ∈ c.quad.left.map Prod.fst ∨ v ∈ c.quad.right.map Prod.fst) ∨ v ∈ c.lin.map Prod.fst by
      simp only [conVars, List.mem_append]]
    generalize (∃ a ∈ cs, v ∈ conVars a) = P
    tauto

theorem nodup_keys {V : Type _} {m : SMap V} (h : SMap.Sorted m) : (SMap.keys m).Nodup := by
  unfold SMap.keys SMap.Sorted at *
  rw [List.Nodup, List.pairwise_map]
  exact h.imp fun hab => ne_of_lt hab

theorem sortedKeys {V : Type _} {m : SMap V} (h : SMap.Sorted m) : (SMap.keys m).Pairwise (fun a b => a < b) := by
  unfold SMap.keys SMap.Sorted at *
  rw [List.pairwise_map]
  exact h

/-! ### Rows -/

theorem sparse_ok {m : WireMap} {vs : List Variable} (h : Wires m vs) (l : LinComb F) (hl : ∀ v ∈ l.map Prod.fst, v ∈ vs) :
    ∃ r, sparse m l = some r ∧ r.length = l.length ∧ r.map Prod.snd = l.map Prod.snd ∧
      (r.map fun t => vs[t.1]?) = l.map fun t => some t.1 := by
  induction l with
  | nil => exact ⟨[], rfl, rfl, rfl, rfl⟩
  | cons t l ih =>
    obtain ⟨k, v⟩ := t
    obtain ⟨r, h1, h2, h3, h4⟩ := ih fun w hw => hl w (by simp only [List.map_cons, List.mem_cons]; exact Or.inr hw)
    obtain ⟨i, hi⟩ := List.getElem?_of_mem (hl k (by simp))
    have hi' := (h.lookup k i).2 hi
    exact ⟨(i, v) :: r, by simp only [sparse, hi', h1], by simp [h2], by simp [h3], by simp [h4, hi]⟩

theorem sparse_bound {vs : List Variable} {l : LinComb F} {r : List (ℕ × F)}
    (h4 : (r.map fun t => vs[t.1]?) = l.map fun t => some t.1) : ∀ t ∈ r, t.1 < vs.length := by
  intro t ht
  have : vs[t.1]? ∈ l.map fun t => some t.1 := by
    rw [← h4]
    exact List.mem_map.2 ⟨t, ht, rfl⟩
  obtain ⟨u, -, hu⟩ := List.mem_map.1 this
  by_contra hc
  rw [List.getElem?_eq_none (by omega)] at hu
  cases hu

section
variable [Field F]

theorem dot_sparse (vs : List Variable) (l : LinComb F) (r : List (ℕ × F)) (h3 : r.map Prod.snd = l.map Prod.snd)
    (h4 : (r.map fun t => vs[t.1]?) = l.map fun t => some t.1) (x : ℕ → F) (ρ : Assignment F)
    (hx : ∀ i v, vs[i]? = some v → x i = ρ v) : dot r x = l.val ρ := by
  unfold dot LinComb.val
  induction l generalizing r with
  | nil => cases r <;> simp_all
  | cons t l ih => cases r with
    | nil => simp at h3
    | cons u r =>
      simp only [List.map_cons, List.cons.injEq] at h3 h4
      simp only [List.map_cons, List.sum_cons]
      rw [ih r h3.2 h4.2, h3.1, hx _ _ h4.1]

theorem rows_ok {m : WireMap} {vs : List Variable} (h : Wires m vs) (cs : List (Constraint F))
    (hc : ∀ c ∈ cs, ∀ v ∈ conVars c, v ∈ vs) :
    ∃ rs, rows m cs = some rs ∧ rs.length = cs.length ∧ (∀ r ∈ rs, RowBounded vs.length r) ∧ ∀ (x : ℕ → F) (ρ : Assignment F),
      (∀ i v, vs[i]? = some v → x i = ρ v) → ((∀ r ∈ rs, RowSat x r) ↔ ∀ c ∈ cs, c.Sat ρ) := by
  induction cs with
  | nil => exact ⟨[], rfl, rfl, by simp, by simp⟩
  | cons c cs ih =>
    obtain ⟨rs, h1, hl, hbd, h2⟩ := ih fun c' hc' => hc c' (List.mem_cons_of_mem _ hc')
    have hcv := hc c List.mem_cons_self
    unfold conVars at hcv
    obtain ⟨a, a1, -, a3, a4⟩ := sparse_ok h c.quad.left fun v hv => hcv v (by simp only [List.mem_append]; tauto)
    obtain ⟨b, b1, -, b3, b4⟩ := sparse_ok h c.quad.right fun v hv => hcv v (by simp only [List.mem_append]; tauto)
    obtain ⟨l, l1, -, l3, l4⟩ := sparse_ok h c.lin fun v hv => hcv v (by simp only [List.mem_append]; tauto)
    refine ⟨(a, b, l) :: rs, by simp only [rows, a1, b1, l1, h1], by simp [hl], ?_, ?_⟩
    · simp only [List.forall_mem_cons]
      exact ⟨⟨sparse_bound a4, sparse_bound b4, sparse_bound l4⟩, hbd⟩
    intro x ρ hx
    simp only [List.forall_mem_cons]
    rw [h2 x ρ hx]
    unfold RowSat Constraint.Sat QuadComb.val
    simp only
    rw [dot_sparse vs _ _ a3 a4 x ρ hx, dot_sparse vs _ _ b3 b4 x ρ hx, dot_sparse vs _ _ l3 l4 x ρ hx]

theorem constraintsOf_sat (ss : List (Stmt F Z)) (cs : List (Constraint F)) (h : constraintsOf ss = some cs)
    (ρ : Assignment F) : SatAll ρ ss ↔ ∀ c ∈ cs, c.Sat ρ := by
  induction ss generalizing cs with
  | nil =>
    simp only [constraintsOf, Option.some.injEq] at h
    subst h
    simp [SatAll]
  | cons s ss ih =>
    have hcons : SatAll ρ (s :: ss) ↔ s.Sat ρ ∧ SatAll ρ ss := by unfold SatAll; simp
    rw [hcons]
    cases s with
    | block _ => simp [constraintsOf] at h
    | constraint c =>
      simp only [constraintsOf] at h
      cases hs : constraintsOf ss with
      | none => rw [hs] at h; cases h
      | some cs' =>
        rw [hs] at h
        simp only [Option.some.injEq] at h
        subst h
        rw [ih cs' hs]
        simp only [List.forall_mem_cons]
        constructor
        · rintro ⟨h1, h2⟩; cases h1; exact ⟨by assumption, h2⟩
        · rintro ⟨h1, h2⟩; exact ⟨.constraint h1, h2⟩
    | directive d =>
      rw [ih cs (by simpa only [constraintsOf] using h)]
      exact ⟨fun h => h.2, fun h => ⟨.directive d, h⟩⟩
    | log l =>
      rw [ih cs (by simpa only [constraintsOf] using h)]
      exact ⟨fun h => h.2, fun h => ⟨.log l, h⟩⟩

end

theorem constraintsOf_vars (ss : List (Stmt F Z)) (cs : List (Constraint F)) (h : constraintsOf ss = some cs) (v : Variable) :
    (∃ c ∈ cs, v ∈ conVars c) ↔ v ∈ constraintVars ss := by
  induction ss generalizing cs with
  | nil =>
    simp only [constraintsOf, Option.some.injEq] at h
    subst h
    simp [constraintVars]
  | cons s ss ih =>
    cases s with
    | block _ => simp [constraintsOf] at h
    | constraint c =>
      simp only [constraintsOf] at h
      cases hs : constraintsOf ss with
      | none => rw [hs] at h; cases h
      | some cs' =>
        rw [hs] at h
        simp only [Option.some.injEq] at h
        subst h
        simp only [List.mem_cons, exists_eq_or_imp]
        rw [ih cs' hs]
        simp only [constraintVars, conVars, List.mem_append]
    | directive d =>
      simp only [constraintVars]
      exact ih cs (by simpa only [constraintsOf] using h)
    | log l =>
      simp only [constraintVars]
      exact ih cs (by simpa only [constraintsOf] using h)

theorem constraintsOf_isSome (ss : List (Stmt F Z)) : (∃ cs, constraintsOf ss = some cs) ↔ ∀ b, Stmt.block b ∉ ss := by
  induction ss with
  | nil => simp [constraintsOf]
  | cons s ss ih =>
    cases s with
    | block b =>
      simp only [constraintsOf, reduceCtorEq, exists_false, List.mem_cons, false_iff]
      push Not
      exact ⟨b, Or.inl rfl⟩
    | constraint c =>
      simp only [constraintsOf, List.mem_cons, reduceCtorEq, false_or]
      rw [← ih]
      cases constraintsOf ss <;> simp
    | directive d =>
      simp only [constraintsOf, List.mem_cons, reduceCtorEq, false_or]
      exact ih
    | log l =>
      simp only [constraintsOf, List.mem_cons, reduceCtorEq, false_or]
      exact ih

/-! ### The wires of a program -/

theorem foldl_provide_map {α : Type _} (f : α → Variable) (l : List α) (m : WireMap) :
    l.foldl (fun m a => provide m (f a)) m = (l.map f).foldl provide m := by
  induction l generalizing m with
  | nil => rfl
  | cons a l ih => exact ih _

theorem publicWires_wires (p : Prog F Z) :
    Wires (publicWires p) (addNew (addNew [Variable.one] p.returns) p.publicInputs) := by
  unfold publicWires
  simp only
  rw [foldl_provide_map Parameter.id, foldl_provide_map Variable.pub]
  have h0 : Wires (provide [] Variable.one) [Variable.one] := by
    have := provide_wires (m := []) (vs := []) ⟨rfl, List.nodup_nil⟩ Variable.one
    simpa using this
  exact provides_wires (provides_wires h0 _) _

theorem nodup_public (p : Prog F Z) (h : ArgsInternal p) : (Variable.one :: (p.returns ++ p.publicInputs)).Nodup := by
  have hret : p.returns.Nodup := by
    unfold Prog.returns
    refine List.Nodup.map ?_ List.nodup_range
    intro a b hab
    have : (-(a : ℤ) - 1) = -(b : ℤ) - 1 := hab
    omega
  have hneg : ∀ v ∈ p.returns, (v : ℤ) < 0 := by
    intro v hv
    unfold Prog.returns at hv
    obtain ⟨i, -, rfl⟩ := List.mem_map.1 hv
    show (-(i : ℤ) - 1) < 0
    omega
  have hpos : ∀ v ∈ p.publicInputs, (0 : ℤ) < v := by
    intro v hv
    unfold Prog.publicInputs at hv
    obtain ⟨a, ha, rfl⟩ := List.mem_map.1 hv
    exact h.2 a (List.mem_filter.1 ha).1
  have hpub : p.publicInputs.Nodup := by
    unfold Prog.publicInputs
    exact (List.filter_sublist.map _).nodup h.1
  rw [List.nodup_cons, List.nodup_append]
  refine ⟨?_, hret, hpub, ?_⟩
  · simp only [List.mem_append, not_or]
    exact ⟨fun hv => absurd (hneg _ hv) (by show ¬ ((0 : ℤ) < 0); omega), fun hv => absurd (hpos _ hv) (by show ¬ ((0 : ℤ) < 0); omega)⟩
  · intro a ha b hb hab
    subst hab
    exact absurd (lt_trans (hneg _ ha) (hpos _ hb)) (lt_irrefl _)

theorem publicWires_list (p : Prog F Z) (h : ArgsInternal p) :
    Wires (publicWires p) (Variable.one :: (p.returns ++ p.publicInputs)) := by
  have hw := publicWires_wires p
  have hnd := nodup_public p h
  have h1 : addNew [Variable.one] p.returns = [Variable.one] ++ p.returns := addNew_nodup (by
    rw [List.singleton_append]
    exact List.Nodup.sublist (List.Sublist.cons_cons _ (List.sublist_append_left _ _)) hnd)
  rw [h1, addNew_nodup (by simpa using hnd)] at hw
  simpa using hw

/-- The wires of the exported system: `~one`, the outputs, the public inputs, then the other variables of the constraints in
increasing order. -/
theorem r1cs_spec [Field F] (p : Prog F Z) (h : ArgsInternal p) (hb : ∀ b, Stmt.block b ∉ p.statements) :
    ∃ vars rs rest, r1csProgram p = some (vars, 1 + p.returnCount + p.publicInputs.length, rs) ∧
      vars = Variable.one :: (p.returns ++ p.publicInputs ++ rest) ∧ vars.Nodup ∧
      rest.Pairwise (fun a b => a < b) ∧
      (∀ v, v ∈ rest ↔ v ∈ constraintVars p.statements ∧ v ∉ Variable.one :: (p.returns ++ p.publicInputs)) ∧
      rs.length = (p.statements.filter Ser.isConstraint).length ∧ (∀ r ∈ rs, RowBounded vars.length r) ∧
      ∀ (x : ℕ → F) (ρ : Assignment F), (∀ i v, vars[i]? = some v → x i = ρ v) →
        ((∀ r ∈ rs, RowSat x r) ↔ SatAll ρ p.statements) := by
  obtain ⟨cs, hcs⟩ := (constraintsOf_isSome p.statements).2 hb
  obtain ⟨hsort, hmem⟩ := collect_spec cs
  have hw := publicWires_list p h
  have hw' := provides_wires hw (SMap.keys (collect cs))
  rw [addNew_filter _ _ (nodup_keys hsort)] at hw'
  obtain ⟨rs, h1, hl, hbd, h2⟩ := rows_ok hw' cs (by
    intro c hc v hv
    rw [List.mem_append, List.mem_filter]
    by_cases hv' : v ∈ Variable.one :: (p.returns ++ p.publicInputs)
    · exact Or.inl hv'
    · exact Or.inr ⟨(hmem v).2 ⟨c, hc, hv⟩, by simpa using hv'⟩)
  have hlen : cs.length = (p.statements.filter Ser.isConstraint).length := by
    clear h hb hmem hsort h1 hl h2 hbd hw' hw
    generalize p.statements = ss at hcs ⊢
    induction ss generalizing cs with
    | nil => simp only [constraintsOf, Option.some.injEq] at hcs; subst hcs; rfl
    | cons s ss ih =>
      cases s with
      | block _ => simp [constraintsOf] at hcs
      | constraint c =>
        simp only [constraintsOf] at hcs
        cases hs : constraintsOf ss with
        | none => rw [hs] at hcs; cases hcs
        | some cs' =>
          rw [hs] at hcs
          simp only [Option.some.injEq] at hcs
          subst hcs
          rw [List.filter_cons_of_pos (by rfl), List.length_cons, List.length_cons, ih cs' hs]
      | directive d =>
        rw [List.filter_cons_of_neg (by simp [Ser.isConstraint])]
        exact ih cs (by simpa only [constraintsOf] using hcs)
      | log l =>
        rw [List.filter_cons_of_neg (by simp [Ser.isConstraint])]
        exact ih cs (by simpa only [constraintsOf] using hcs)
  refine ⟨Variable.one :: (p.returns ++ p.publicInputs) ++
      (SMap.keys (collect cs)).filter fun w => w ∉ Variable.one :: (p.returns ++ p.publicInputs), rs,
    (SMap.keys (collect cs)).filter fun w => w ∉ Variable.one :: (p.returns ++ p.publicInputs), ?_, ?_, ?_, ?_, ?_,
    hl.trans hlen, hbd, ?_⟩
  · unfold r1csProgram
    simp only [hcs, h1, variablesList_wires hw', hw.length]
    simp only [List.length_cons, List.length_append, Prog.returns, List.length_map, List.length_range, Option.some.injEq,
      Prod.mk.injEq, true_and, and_true]
    omega
  · simp
  · exact hw'.nodup
  · exact (sortedKeys hsort).filter _
  · intro v
    rw [List.mem_filter, hmem, constraintsOf_vars _ _ hcs]
    simp
  · intro x ρ hx
    rw [h2 x ρ hx, constraintsOf_sat _ _ hcs]

end Zok.Export
