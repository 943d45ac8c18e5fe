import Verif.Lemmas.Exists
import Verif.Lemmas.CmpStmt2
import Verif.Props.Compile

/-
From the source function to the lowered program: the program is in single-assignment form, and an honest prover can
satisfy it with every result the function can return.
-/

set_option linter.unusedSectionVars false
set_option linter.unusedVariables false

namespace Zok
variable {p : ℕ} {Z : Type} [Fact p.Prime] {sem : SolverSem (ZMod p) Z} {f : ZFun (ZMod p) Z} {P : Prog (ZMod p) Z}
  {cl : Bool}

theorem lowerProgram_some (h : lowerProgram f = some (P, cl)) : ∃ args st' ts,
    Flt.flattenFun f (FlState.init p Z) = some (args, st') ∧ st'.clash = cl ∧ FlatStmt.toIrL st'.out = some ts ∧
      P = ⟨args, f.returnCount, ts, []⟩ := by
  unfold lowerProgram at h
  split at h
  · cases h
  · rename_i args ss c hfp
    unfold fromProgram at hfp
    obtain ⟨⟨args', st'⟩, h1, h2⟩ := Option.map_eq_some_iff.1 hfp
    cases h2
    split at h
    · cases h
    · rename_i ts ht
      cases h
      exact ⟨_, st', ts, h1, rfl, ht, rfl⟩

theorem toIrL_append {a b : List (FlatStmt (ZMod p) Z)} {ts : List (Stmt (ZMod p) Z)}
    (h : FlatStmt.toIrL (a ++ b) = some ts) :
    ∃ ta tb, FlatStmt.toIrL a = some ta ∧ FlatStmt.toIrL b = some tb ∧ ts = ta ++ tb := by
  induction a generalizing ts with
  | nil => exact ⟨[], ts, rfl, h, rfl⟩
  | cons s a ih =>
    rw [List.cons_append, FlatStmt.toIrL] at h
    split at h
    · rename_i t ts' g1 g2
      cases h
      obtain ⟨ta, tb, h1, h2, rfl⟩ := ih g2
      refine ⟨t :: ta, tb, ?_, h2, rfl⟩
      rw [FlatStmt.toIrL, g1, h1]
    · cases h

theorem Scs.defines {D D' : Set Variable} {ss : List (FlatStmt (ZMod p) Z)} (h : Scs D ss D') {x : Variable}
    {e : FlatExpr (ZMod p)} (hx : .definition x e ∈ ss) : x ∈ D' := by
  induction ss generalizing D with
  | nil => cases hx
  | cons s ss ih =>
    cases h with
    | cons h1 h2 =>
      rcases List.mem_cons.1 hx with rfl | hx
      · cases h1 with
        | definition g1 g2 => exact Scs.subset h2 (Set.mem_insert _ _)
      · exact ih h2 hx

theorem one_ne_new (k : ℕ) : Variable.one ≠ Variable.new k := by
  intro h
  have h' : (0 : ℤ) = 1 + k := h
  omega

theorem one_ne_pub (k : ℕ) : Variable.one ≠ Variable.pub k := by
  intro h
  have h' : (0 : ℤ) = -(k : ℤ) - 1 := h
  omega

theorem definitions_noDirective {ss : List (FlatStmt (ZMod p) Z)} (h : ∀ s ∈ ss, ∃ x e, s = .definition x e)
    {ts : List (Stmt (ZMod p) Z)} (ht : FlatStmt.toIrL ss = some ts) : ∀ t ∈ ts, ∃ c, t = .constraint c := by
  induction ss generalizing ts with
  | nil => cases ht; intro t ht; cases ht
  | cons s ss ih =>
    rw [FlatStmt.toIrL] at ht
    split at ht
    · rename_i t ts' g1 g2
      cases ht
      intro u hu
      rcases List.mem_cons.1 hu with rfl | hu
      · obtain ⟨x, e, rfl⟩ := h s (by simp)
        rw [FlatStmt.toIr] at g1
        split at g1
        · cases g1; exact ⟨_, rfl⟩
        · cases g1
      · exact ih (fun s hs => h s (by simp [hs])) g2 u hu
    · cases ht

theorem directivesFresh_constraints {ts : List (Stmt (ZMod p) Z)} (h : ∀ t ∈ ts, ∃ c, t = .constraint c)
    (seen : List Variable) : DirectivesFresh seen ts := by
  induction ts generalizing seen with
  | nil => trivial
  | cons t ts ih =>
    obtain ⟨c, rfl⟩ := h t (by simp)
    exact ⟨trivial, ih (fun t ht => h t (by simp [ht])) _⟩

/-- Everything about the scoping of the flattened statements. -/
theorem flattened_scope (hs : SingleReturn f) (hret : ∀ ss es, f.body = ss ++ [.ret es] → es.length = f.returnCount)
    {as : List Parameter} {st' : FlState p Z} (h : Flt.flattenFun f (FlState.init p Z) = some (as, st')) :
    ∃ pre post D D', st'.out = pre ++ post ∧ (∀ s ∈ post, ∃ x e, s = .definition x e) ∧
      Scs {x | ∃ a ∈ as, x = a.id} pre D ∧ Scs D post D' ∧ (∀ x ∈ D, ∃ k, x = Variable.new k) ∧
      (∀ x ∈ D', (∃ k, x = Variable.new k) ∨ ∃ i, x = Variable.pub i) ∧
      (∀ i < f.returnCount, Variable.pub i ∈ D') ∧ (as.map (·.id)).Nodup ∧ as.length = f.params.length := by
  obtain ⟨⟨pre, fs, D, h1, h2, h3, h4, h5⟩, h6, h7⟩ := flattenFun_scope hs h
  obtain ⟨D', h8⟩ := outputDefs_scope (Z := Z) fs 0 D h3 (fun i _ hi => by
    obtain ⟨k, hk⟩ := h4 _ hi; exact pub_ne_new _ _ hk)
  refine ⟨pre, Flt.outputDefs fs, D, D', h1, ?_, h2, h8, h4, ?_, ?_, h6, h7⟩
  · intro s hs
    obtain ⟨t, _, rfl⟩ := List.mem_map.1 hs
    exact ⟨_, _, rfl⟩
  · have key : ∀ (ss : List (FlatStmt (ZMod p) Z)) (D : Set Variable), Scs D ss D' →
        (∀ s ∈ ss, ∃ i e, s = .definition (Variable.pub i) e) → ∀ x ∈ D', x ∈ D ∨ ∃ i, x = Variable.pub i := by
      intro ss
      induction ss with
      | nil => intro D h _ x hx; cases h; exact Or.inl hx
      | cons s ss ih =>
        intro D h hd x hx
        cases h with
        | cons g1 g2 =>
          obtain ⟨i, e, rfl⟩ := hd s (by simp)
          cases g1 with
          | definition _ _ =>
            rcases ih _ g2 (fun s hs => hd s (by simp [hs])) x hx with (h | h) | h
            · exact Or.inr ⟨i, h⟩
            · exact Or.inl h
            · exact Or.inr h
    intro x hx
    rcases key _ _ h8 (fun s hs => by obtain ⟨t, _, rfl⟩ := List.mem_map.1 hs; exact ⟨_, _, rfl⟩) x hx with h | h
    · exact Or.inl (h4 x h)
    · exact Or.inr h
  · intro i hi
    obtain ⟨ss, es, hb, _⟩ := hs
    have hl : i < fs.length := by rw [h5 ss es hb, hret ss es hb]; exact hi
    refine Scs.defines h8 (e := fs[i]) ?_
    refine List.mem_map.2 ⟨(fs[i], i), ?_, rfl⟩
    exact List.mk_mem_zipIdx_iff_getElem?.2 (List.getElem?_eq_getElem hl)

theorem OkFun.returns (hf : OkFun f) : ∀ ss es, f.body = ss ++ [.ret es] → es.length = f.returnCount := by
  obtain ⟨ss', es', _, h1, h2, _⟩ := hf.body
  intro ss es h
  rw [h] at h1
  have := (List.append_inj' h1 rfl).2
  cases this
  exact h2

/-- The lowered program is in single-assignment form, up to the block structure. -/
theorem lowered_singleAssignment (hf : OkFun f) (hs : SingleReturn f) (h : lowerProgram f = some (P, cl)) :
    SingleAssignment { P with statements := Stmt.cleanL P.statements } := by
  obtain ⟨args, st', ts, h1, h2, h3, rfl⟩ := lowerProgram_some h
  obtain ⟨pre, post, D, D', g1, g2, g3, g4, g5, g6, g7, g8, _⟩ := flattened_scope hs hf.returns h1
  have hall := (g3.append g4).toIr (by rw [← g1]; exact h3)
  rw [g1] at h3
  obtain ⟨ta, tb, i1, i2, rfl⟩ := toIrL_append h3
  have hpre := g3.toIr i1
  have hid : ∀ a ∈ args, ∃ k, a.id = Variable.new k := fun a ha => g5 _ (hpre.sub ⟨a, ha, rfl⟩)
  refine ⟨?_, ?_, ?_, ?_⟩
  · refine List.nodup_cons.2 ⟨?_, g8⟩
    intro hm
    obtain ⟨a, ha, he⟩ := List.mem_map.1 hm
    obtain ⟨k, hk⟩ := hid a ha
    exact one_ne_new k (he.symm.trans hk)
  · refine hall.wellScoped _ ?_
    rintro x (⟨a, ha, rfl⟩ | rfl)
    · exact List.mem_cons_of_mem _ (List.mem_map.2 ⟨a, ha, rfl⟩)
    · exact List.mem_cons_self
  · show DirectivesFresh (protectedVars args f.returnCount) (Stmt.cleanL (ta ++ tb))
    rw [Stmt.cleanL_append, directivesFresh_append]
    constructor
    · refine hpre.fresh _ ({Variable.one} ∪ {x | ∃ i, x = Variable.pub i}) ?_ ?_ (Or.inl rfl)
      · intro x hx
        simp only [protectedVars, List.cons_append, List.mem_cons, List.mem_append] at hx
        rcases hx with rfl | hx | hx
        · exact Or.inr (Or.inl rfl)
        · obtain ⟨a, ha, rfl⟩ := List.mem_map.1 hx
          exact Or.inl ⟨a, ha, rfl⟩
        · obtain ⟨i, _, rfl⟩ := List.mem_map.1 hx
          exact Or.inr (Or.inr ⟨i, rfl⟩)
      · intro x hx
        obtain ⟨k, rfl⟩ := g5 x hx
        rintro (h | ⟨i, h⟩)
        · exact one_ne_new k h.symm
        · exact pub_ne_new i k h.symm
    · have hc := definitions_noDirective g2 i2
      rw [Stmt.cleanL_leaf (ss := tb)]
      · exact directivesFresh_constraints hc _
      · intro t ht
        obtain ⟨c, rfl⟩ := hc t ht
        trivial
  · intro r hr
    obtain ⟨i, hi, rfl⟩ := List.mem_map.1 hr
    rcases hall.grows _ (g7 i (List.mem_range.1 hi)) with ⟨a, ha, he⟩ | hg
    · obtain ⟨k, hk⟩ := hid a ha
      exact absurd (he.trans hk) (pub_ne_new i k)
    · exact List.mem_append_right _ hg

theorem exists_args : ∀ (as : List Variable) (hn : as.Nodup) (ins : List (ZMod p)) (hl : ins.length = as.length),
    ∃ ρ : Assignment (ZMod p), as.map ρ = ins ∧ ρ Variable.one = if Variable.one ∈ as then ρ Variable.one else 1 := by
  intro as hn ins hl
  obtain ⟨ρ, h1, h2⟩ := exists_update as hn ins hl (fun _ => 1)
  refine ⟨ρ, h1, ?_⟩
  split
  · rfl
  · rename_i h; exact h2 _ h

theorem decodeArgs_length {qs : List ZParam} {xs : List (ZMod p)} {vs : List (ZVal p)} (h : decodeArgs qs xs = some vs) :
    xs.length = qs.length := (decodeArgs_getElem h).1

/-- An honest prover can satisfy the lowered program with every result the function can return. -/
theorem lowered_honest (hp : 2 < p) (hf : OkFun f) (hs : SingleReturn f) (h : lowerProgram f = some (P, false))
    {ins outs : List (ZMod p)} (hr : Returns (Oracle.honest sem) f ins outs) :
    ∃ ρ : Assignment (ZMod p), HonestAssignment sem P.solvers P.arguments ins (Stmt.cleanL P.statements) ρ ∧
      P.returns.map ρ = outs ∧ SatAll ρ P.statements := by
  obtain ⟨args, st', ts, h1, h2, h3, rfl⟩ := lowerProgram_some h
  obtain ⟨pre, post, D, D', g1, g2, g3, g4, g5, g6, g7, g8, g9⟩ := flattened_scope hs hf.returns h1
  have hl : ins.length = (args.map (·.id)).length := by
    obtain ⟨vs, _, _, hd, _⟩ := hr
    rw [decodeArgs_length hd, List.length_map, g9]
  have hone : Variable.one ∉ args.map (·.id) := by
    intro hm
    obtain ⟨a, ha, he⟩ := List.mem_map.1 hm
    obtain ⟨k, hk⟩ := g5 a.id (Scs.subset g3 ⟨a, ha, rfl⟩)
    exact one_ne_new k (he.symm.trans hk)
  obtain ⟨ρ0, i1, i2⟩ := exists_args _ g8 ins hl
  rw [if_neg hone] at i2
  have hsc := (g3.append g4).weaken (x := Variable.one) (by
    intro hm
    rcases g6 _ hm with ⟨k, hk⟩ | ⟨k, hk⟩
    · exact one_ne_new k hk
    · exact one_ne_pub k hk)
  rw [← g1] at hsc
  obtain ⟨ρ, j1, j2⟩ := hsc.exists_honest (sem := sem) ρ0
  have k1 : ρ Variable.one = 1 := (j1 _ (Set.mem_insert _ _)).trans i2
  have k2 : args.map (fun a => ρ a.id) = ins := by
    rw [← i1, List.map_map]
    exact List.map_congr_left fun a ha => j1 _ (Or.inr ⟨a, ha, rfl⟩)
  obtain ⟨l1, l2, l3⟩ := flattenFun_complete hp hf h1 h2 (ρ := ρ) (sem := sem) j2 (by rw [k2]; exact hr)
  refine ⟨ρ, ⟨k1, k2, ?_⟩, ?_, ?_⟩
  · exact FlatStmt.Good.directivesL k1 l1 h3
  · refine List.ext_getElem? fun i => ?_
    simp only [Prog.returns, List.getElem?_map]
    by_cases hi : i < f.returnCount
    · rw [List.getElem?_range hi]
      have hi' : i < outs.length := by rw [l2]; exact hi
      rw [List.getElem?_eq_getElem hi']
      simp only [Option.map_some, Option.some.injEq]
      exact l3 i _ (List.getElem?_eq_getElem hi')
    · rw [List.getElem?_eq_none (by simpa using hi), List.getElem?_eq_none (by rw [l2]; omega)]
      rfl
  · exact ((C07_from_flat _).2 ts h3 ρ k1).2 l1.satF

end Zok
