import Verif.Lemmas.ExportFile
import Verif.Lemmas.SerializeProg

namespace Zok.Export
variable {F Z : Type _}

/-! ### Removing values in order -/

theorem keys_erase {V : Type _} {m : SMap V} (hm : SMap.Sorted m) (x y : Variable) :
    y ∈ SMap.keys (SMap.erase m x) ↔ y ∈ SMap.keys m ∧ y ≠ x := by
  rw [← SMap.get_isSome_iff, ← SMap.get_isSome_iff, SMap.get_erase hm]
  split
  · rename_i h
    simp [h]
  · rename_i h
    simp [h]

theorem takeAll_ok (vs : List Variable) (w : SMap F) (hs : SMap.Sorted w) (nd : vs.Nodup) (hv : ∀ v ∈ vs, v ∈ SMap.keys w) :
    ∃ xs w', takeAll w vs = some (xs, w') ∧ SMap.Sorted w' ∧ xs.map some = vs.map (SMap.get w) ∧
      (∀ v, v ∈ SMap.keys w' ↔ v ∈ SMap.keys w ∧ v ∉ vs) ∧ ∀ v, v ∉ vs → SMap.get w' v = SMap.get w v := by
  induction vs generalizing w with
  | nil => exact ⟨[], w, rfl, hs, rfl, by simp, by simp⟩
  | cons v vs ih =>
    have hnd := List.nodup_cons.1 nd
    have hk := hv v List.mem_cons_self
    rw [← SMap.get_isSome_iff, Option.isSome_iff_exists] at hk
    obtain ⟨x, hx⟩ := hk
    obtain ⟨xs, w', h1, h2, h3, h4, h5⟩ := ih (SMap.erase w v) (SMap.sorted_erase hs v) hnd.2 (by
      intro u hu
      rw [keys_erase hs]
      exact ⟨hv u (List.mem_cons_of_mem _ hu), fun e => hnd.1 (e ▸ hu)⟩)
    refine ⟨x :: xs, w', by simp only [takeAll, hx, h1], h2, ?_, ?_, ?_⟩
    · simp only [List.map_cons, h3, hx, List.cons.injEq, true_and]
      apply List.map_congr_left
      intro u hu
      rw [SMap.get_erase hs, if_neg]
      exact fun e => hnd.1 (e ▸ hu)
    · intro u
      rw [h4, keys_erase hs, List.mem_cons]
      tauto
    · intro u hu
      rw [List.mem_cons, not_or] at hu
      rw [h5 u hu.2, SMap.get_erase hs, if_neg hu.1]

theorem sorted_ext {a b : List Variable} (ha : a.Pairwise (fun x y => x < y)) (hb : b.Pairwise (fun x y => x < y))
    (h : ∀ v, v ∈ a ↔ v ∈ b) : a = b := by
  have na : a.Nodup := ha.imp fun h => ne_of_lt h
  have nb : b.Nodup := hb.imp fun h => ne_of_lt h
  have hp : a.Perm b := (List.perm_ext_iff_of_nodup na nb).2 h
  refine List.Perm.eq_of_pairwise (le := fun x y => x < y) ?_ ha hb hp
  intro x y _ _ h1 h2
  exact absurd (lt_trans h1 h2) (lt_irrefl _)

theorem publicInputSet_spec (p : Prog F Z) (h : p.publicInputs.Pairwise (fun a b => a < b)) :
    SMap.keys (publicInputSet p) = p.publicInputs := by
  have key : ∀ (l : List Variable) (s : VarSet), SMap.Sorted s →
      SMap.Sorted (l.foldl (fun s v => SMap.insert s v ()) s) ∧
      ∀ v, v ∈ SMap.keys (l.foldl (fun s v => SMap.insert s v ()) s) ↔ v ∈ SMap.keys s ∨ v ∈ l := by
    intro l
    induction l with
    | nil => intro s hs; exact ⟨hs, by simp⟩
    | cons a l ih =>
      intro s hs
      obtain ⟨h1, h2⟩ := ih _ (SMap.sorted_insert hs a ())
      refine ⟨h1, fun v => ?_⟩
      rw [List.foldl_cons, h2, SMap.mem_insert_keys, List.mem_cons]
      tauto
  obtain ⟨h1, h2⟩ := key p.publicInputs [] SMap.sorted_nil
  refine sorted_ext (sortedKeys h1) h ?_
  intro v
  rw [publicInputSet, h2]
  simp [SMap.keys]

/-- The values are written in the order of the wires. -/
theorem witnessValues_aligned (p : Prog F Z) (args : ArgsInternal p)
    (inc : p.publicInputs.Pairwise (fun a b => a < b)) (rest : List Variable) (hrest : rest.Pairwise (fun a b => a < b))
    (w : SMap F) (hs : SMap.Sorted w)
    (hout : ∀ v ∈ rest, ¬ (v : ℤ) < 0) (hd : ∀ v ∈ rest, v ∉ Variable.one :: (p.returns ++ p.publicInputs))
    (hk : ∀ v, v ∈ SMap.keys w ↔ v ∈ Variable.one :: (p.returns ++ p.publicInputs ++ rest)) :
    ∃ vals, witnessValues w (publicInputSet p) = some vals ∧
      vals.map some = (Variable.one :: (p.returns ++ p.publicInputs ++ rest)).map (SMap.get w) := by
  have hnd := nodup_public p args
  rw [List.nodup_cons, List.nodup_append] at hnd
  obtain ⟨hone, hret, hpub, hdisj⟩ := hnd
  rw [List.mem_append, not_or] at hone
  have hneg : ∀ v ∈ p.returns, (v : ℤ) < 0 := by
    intro v hv
    unfold Prog.returns at hv
    obtain ⟨i, -, rfl⟩ := List.mem_map.1 hv
    show (-(i : ℤ) - 1) < 0
    omega
  have hpos : ∀ v ∈ p.publicInputs, (0 : ℤ) < v := by
    intro v hv
    unfold Prog.publicInputs at hv
    obtain ⟨a, ha, rfl⟩ := List.mem_map.1 hv
    exact args.2 a (List.mem_filter.1 ha).1
  unfold witnessValues
  have hone' : ∃ x, SMap.get w Variable.one = some x := by
    rw [← Option.isSome_iff_exists, SMap.get_isSome_iff, hk]
    simp
  obtain ⟨x1, hx1⟩ := hone'
  simp only [hx1, Option.toList_some]
  have hs1 := SMap.sorted_erase hs Variable.one
  have hg1 := fun v => SMap.get_erase hs Variable.one v
  have hk1 := fun v => keys_erase hs Variable.one v
  generalize SMap.erase w Variable.one = w1 at hs1 hg1 hk1
  -- the number of outputs
  have hcount : (w1.filter fun kv => Variable.isOutput kv.1).length = p.returnCount := by
    have hp : (SMap.keys (w1.filter fun kv => Variable.isOutput kv.1)).Perm p.returns := by
      refine (List.perm_ext_iff_of_nodup (nodup_keys (hs1.filter _)) hret).2 ?_
      intro v
      constructor
      · intro hv
        obtain ⟨e, he, rfl⟩ := List.mem_map.1 hv
        rw [List.mem_filter] at he
        have h1 : e.1 ∈ SMap.keys w1 := List.mem_map.2 ⟨e, he.1, rfl⟩
        have h2 : (e.1 : ℤ) < 0 := by simpa [Variable.isOutput] using he.2
        rw [hk1, hk, List.mem_cons, List.mem_append, List.mem_append] at h1
        rcases h1 with ⟨h1 | (h1 | h1) | h1, h3⟩
        · exact absurd h1 h3
        · exact h1
        · exact absurd (lt_trans h2 (hpos _ h1)) (lt_irrefl _)
        · exact absurd h2 (hout _ h1)
      · intro hv
        have h1 : v ∈ SMap.keys w1 := by
          rw [hk1, hk]
          exact ⟨by simp [hv], fun e => hone.1 (e ▸ hv)⟩
        obtain ⟨e, he, rfl⟩ := List.mem_map.1 h1
        refine List.mem_map.2 ⟨e, List.mem_filter.2 ⟨he, ?_⟩, rfl⟩
        have := hneg _ hv
        simpa [Variable.isOutput] using this
    have := hp.length_eq
    simpa [SMap.keys, Prog.returns] using this
  rw [hcount]
  change ∃ vals, (match takeAll w1 p.returns with
    | none => none
    | some (outs, w) => match takeAll w (SMap.keys (publicInputSet p)) with
      | none => none
      | some (ins, w) => some ([x1] ++ outs ++ ins ++ w.map Prod.snd)) = some vals ∧
      vals.map some = (Variable.one :: (p.returns ++ p.publicInputs ++ rest)).map (SMap.get w)
  obtain ⟨outs, w2, a1, a2, a3, a4, a5⟩ := takeAll_ok p.returns w1 hs1 hret (by
    intro v hv
    rw [hk1, hk]
    exact ⟨by simp [hv], fun e => hone.1 (e ▸ hv)⟩)
  obtain ⟨ins, w3, b1, b2, b3, b4, b5⟩ := takeAll_ok p.publicInputs w2 a2 hpub (by
    intro v hv
    rw [a4, hk1, hk]
    exact ⟨⟨by simp [hv], fun e => hone.2 (e ▸ hv)⟩, fun h => hdisj v h v hv rfl⟩)
  rw [a1]
  simp only
  rw [publicInputSet_spec p inc, b1]
  refine ⟨_, rfl, ?_⟩
  have hk3 : SMap.keys w3 = rest := by
    refine sorted_ext (sortedKeys b2) hrest ?_
    intro v
    rw [b4, a4, hk1, hk]
    simp only [List.mem_cons, List.mem_append]
    constructor
    · rintro ⟨⟨⟨h1, h2⟩, h3⟩, h4⟩
      rcases h1 with h | (h | h) | h
      · exact absurd h h2
      · exact absurd h h3
      · exact absurd h h4
      · exact h
    · intro h
      have := hd v h
      simp only [List.mem_cons, List.mem_append, not_or] at this
      exact ⟨⟨⟨Or.inr (Or.inr h), this.1⟩, this.2.1⟩, this.2.2⟩
  have hvals3 : (w3.map Prod.snd).map some = rest.map (SMap.get w) := by
    rw [← hk3]
    unfold SMap.keys
    rw [List.map_map, List.map_map]
    apply List.map_congr_left
    intro e he
    have hg := SMap.get_of_mem b2 (x := e.1) (v := e.2) he
    have hr : e.1 ∈ rest := by rw [← hk3]; exact List.mem_map.2 ⟨e, he, rfl⟩
    have := hd _ hr
    simp only [List.mem_cons, List.mem_append, not_or] at this
    rw [b5 _ this.2.2, a5 _ this.2.1, hg1, if_neg this.1] at hg
    simp only [Function.comp_apply, hg]
  simp only [List.map_append, List.map_cons, List.map_nil, List.nil_append, List.append_assoc, List.cons_append]
  rw [hvals3, a3, b3, hx1]
  have e1 : p.returns.map (SMap.get w1) = p.returns.map (SMap.get w) := by
    apply List.map_congr_left
    intro v hv
    rw [hg1, if_neg]
    exact fun e => hone.1 (e ▸ hv)
  have e2 : p.publicInputs.map (SMap.get w2) = p.publicInputs.map (SMap.get w) := by
    apply List.map_congr_left
    intro v hv
    rw [a5 v (fun h => hdisj v h v hv rfl), hg1, if_neg]
    exact fun e => hone.2 (e ▸ hv)
  rw [e1, e2]

/-! ### The variables bound by an execution -/

section
variable {p : ℕ} [Fact p.Prime]

theorem execStmt_keys {sem : SolverSem (ZMod p) Z} {oor : Bool} {solvers : List (Solver Z)} {w w' : Witness (ZMod p)}
    {s : Stmt (ZMod p) Z} (h : execStmt sem oor solvers w s = .ok w') (hs : SMap.Sorted w) (v : Variable) :
    v ∈ SMap.keys w' ↔ v ∈ SMap.keys w ∨ v ∈ constraintVars [s] ∨ ∃ d, s = .directive d ∧ v ∈ d.outputs := by
  have hok := (execStmt_ok _ _ _ h hs).2.1 v
  rw [SMap.get_isSome_iff, SMap.get_isSome_iff] at hok
  cases s with
  | block ss => simp [execStmt] at h
  | constraint c =>
    rw [hok]
    simp only [Stmt.vars, QuadComb.vars, LinComb.vars, constraintVars, List.append_nil, reduceCtorEq, false_and, exists_false,
      or_false]
  | directive d =>
    simp only [execStmt] at h
    split at h
    · cases h
    · split at h
      · cases h
      · split at h
        · cases h
        · rename_i w2 hw2
          simp only [Except.ok.injEq] at h
          subst h
          rw [← SMap.get_isSome_iff, insertOutputs_keys hw2, SMap.get_isSome_iff]
          simp only [constraintVars, List.not_mem_nil, false_or, Stmt.directive.injEq, exists_eq_left']
          exact or_comm
  | log l =>
    simp only [execStmt] at h
    split at h
    · cases h
    · simp only [Except.ok.injEq] at h
      subst h
      simp [constraintVars]

theorem constraintVars_cons (s : Stmt F Z) (ss : List (Stmt F Z)) (v : Variable) :
    v ∈ constraintVars (s :: ss) ↔ v ∈ constraintVars [s] ∨ v ∈ constraintVars ss := by
  cases s <;> simp only [constraintVars, List.mem_append, List.append_nil, List.not_mem_nil, false_or]

theorem execStmts_keys {sem : SolverSem (ZMod p) Z} {oor : Bool} {solvers : List (Solver Z)} {w w' : Witness (ZMod p)}
    {ss : List (Stmt (ZMod p) Z)} (h : execStmts sem oor solvers w ss = .ok w') (hs : SMap.Sorted w) :
    SMap.Sorted w' ∧ ∀ v, v ∈ SMap.keys w' ↔
      v ∈ SMap.keys w ∨ v ∈ constraintVars ss ∨ ∃ d, Stmt.directive d ∈ ss ∧ v ∈ d.outputs := by
  induction ss generalizing w with
  | nil =>
    simp only [execStmts, Except.ok.injEq] at h
    subst h
    exact ⟨hs, by simp [constraintVars]⟩
  | cons s ss ih =>
    simp only [execStmts] at h
    split at h
    · cases h
    · rename_i w1 h1
      have hs1 := (execStmt_ok _ _ _ h1 hs).1
      obtain ⟨i1, i2⟩ := ih h hs1
      refine ⟨i1, fun v => ?_⟩
      rw [i2, execStmt_keys h1 hs, constraintVars_cons s ss]
      simp only [List.mem_cons]
      constructor
      · rintro ((h | h | ⟨d, hd, h⟩) | h | ⟨d, hd, h⟩)
        · exact Or.inl h
        · exact Or.inr (Or.inl (Or.inl h))
        · exact Or.inr (Or.inr ⟨d, Or.inl hd.symm, h⟩)
        · exact Or.inr (Or.inl (Or.inr h))
        · exact Or.inr (Or.inr ⟨d, Or.inr hd, h⟩)
      · rintro (h | (h | h) | ⟨d, hd | hd, h⟩)
        · exact Or.inl (Or.inl h)
        · exact Or.inl (Or.inr (Or.inl h))
        · exact Or.inr (Or.inl h)
        · exact Or.inl (Or.inr (Or.inr ⟨d, hd.symm, h⟩))
        · exact Or.inr (Or.inr ⟨d, hd, h⟩)

theorem execute_keys {sem : SolverSem (ZMod p) Z} {oor : Bool} {inputs : List (ZMod p)} {prog : Prog (ZMod p) Z}
    {w : Witness (ZMod p)} (h : execute sem oor inputs prog.statements prog.arguments prog.solvers = .ok w) :
    SMap.Sorted w ∧ ∀ v, v ∈ SMap.keys w ↔ v = Variable.one ∨ v ∈ prog.arguments.map Parameter.id ∨
      v ∈ constraintVars prog.statements ∨ ∃ d, Stmt.directive d ∈ prog.statements ∧ v ∈ d.outputs := by
  unfold execute at h
  split at h
  · cases h
  · rename_i hl
    push Not at hl
    obtain ⟨h1, h2⟩ := execStmts_keys h (initWitness_sorted _ _)
    refine ⟨h1, fun v => ?_⟩
    rw [h2, ← SMap.get_isSome_iff, initWitness_keys _ _ hl]
    simp only [initialVars, List.mem_cons]
    tauto

end

end Zok.Export
