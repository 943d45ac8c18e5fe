import Verif.Lemmas.LinComb
import Verif.Model.Interp
import Verif.Spec.Sat

set_option linter.unusedSectionVars false

namespace Zok

section generic
variable {F : Type _} [Field F] {Z : Type _}

theorem evalLin_foldlM (w : Witness F) (l : LinComb F) (a : F) :
    l.foldlM (fun acc t => (SMap.get w t.1).map (fun v => acc + v * t.2)) a =
      if (∀ x ∈ l.vars, (SMap.get w x).isSome) then some (a + l.val (assignmentOf w)) else none := by
  induction l generalizing a with
  | nil => simp [LinComb.vars]
  | cons t l ih =>
    rw [List.foldlM_cons]
    cases h : SMap.get w t.1 with
    | none =>
      rw [if_neg]
      · simp
      · intro hc
        have := hc t.1 (by simp [LinComb.vars])
        simp [h] at this
    | some v =>
      simp only [Option.map_some, Option.bind_eq_bind, Option.bind_some, ih]
      have e : (∀ x ∈ LinComb.vars (t :: l), (SMap.get w x).isSome) ↔ (∀ x ∈ LinComb.vars l, (SMap.get w x).isSome) := by
        simp [LinComb.vars, h]
      by_cases hc : ∀ x ∈ LinComb.vars l, (SMap.get w x).isSome
      · rw [if_pos hc, if_pos (e.2 hc)]
        have : assignmentOf w t.1 = v := by simp [assignmentOf, h]
        rw [LinComb.val_cons, this]
        congr 1; ring
      · rw [if_neg hc, if_neg (fun h => hc (e.1 h))]

theorem evalLin_eq_some {w : Witness F} {l : LinComb F} {v : F} :
    evalLin w l = some v ↔ (∀ x ∈ l.vars, (SMap.get w x).isSome) ∧ l.val (assignmentOf w) = v := by
  unfold evalLin
  rw [evalLin_foldlM]
  split
  · rename_i h; simp only [zero_add, Option.some.injEq]; exact ⟨fun e => ⟨h, e⟩, fun e => e.2⟩
  · rename_i h; simp only [reduceCtorEq, false_iff]; exact fun e => h e.1

theorem evalQuad_eq_some {w : Witness F} {q : QuadComb F} {v : F} :
    evalQuad w q = some v ↔ (∀ x ∈ q.vars, (SMap.get w x).isSome) ∧ q.val (assignmentOf w) = v := by
  unfold evalQuad
  constructor
  · intro h
    split at h
    · simp at h
    · rename_i l hl
      split at h
      · simp at h
      · rename_i r hr
        simp only [Option.some.injEq] at h
        obtain ⟨a, b⟩ := evalLin_eq_some.1 hl
        obtain ⟨a', b'⟩ := evalLin_eq_some.1 hr
        refine ⟨?_, by rw [QuadComb.val, b, b', h]⟩
        intro x hx
        simp only [QuadComb.vars, List.mem_append] at hx
        exact hx.elim (a x) (a' x)
  · rintro ⟨a, b⟩
    have hl : evalLin w q.left = some (q.left.val (assignmentOf w)) :=
      evalLin_eq_some.2 ⟨fun x hx => a x (by simp [QuadComb.vars, hx]), rfl⟩
    have hr : evalLin w q.right = some (q.right.val (assignmentOf w)) :=
      evalLin_eq_some.2 ⟨fun x hx => a x (by simp [QuadComb.vars, hx]), rfl⟩
    rw [hl, hr]
    simp only [Option.some.injEq]
    exact b

theorem QuadComb.val_congr {ρ σ : Assignment F} {q : QuadComb F} (h : ∀ x ∈ q.vars, ρ x = σ x) :
    q.val ρ = q.val σ := by
  unfold QuadComb.val
  rw [LinComb.val_congr (ρ := ρ) (σ := σ) fun x hx => h x (by simp only [QuadComb.vars, List.mem_append]; exact Or.inl hx),
    LinComb.val_congr (ρ := ρ) (σ := σ) (l := q.right) fun x hx => h x (by simp only [QuadComb.vars, List.mem_append]; exact Or.inr hx)]

theorem mapM_option_eq_some {α β : Type _} (f : α → Option β) (l : List α) (r : List β) :
    l.mapM f = some r ↔ List.Forall₂ (fun a b => f a = some b) l r := by
  induction l generalizing r with
  | nil => simp [eq_comm]
  | cons a l ih =>
    simp only [List.mapM_cons, Option.bind_eq_bind, Option.bind_eq_some_iff, Option.pure_def, Option.some.injEq]
    constructor
    · rintro ⟨b, hb, bs, hbs, rfl⟩
      exact List.Forall₂.cons hb ((ih bs).1 hbs)
    · intro h
      cases h with
      | cons h1 h2 => exact ⟨_, h1, _, (ih _).2 h2, rfl⟩

theorem mapM_evalQuad_bound {w : Witness F} {qs : List (QuadComb F)} {vs : List F}
    (h : qs.mapM (evalQuad w) = some vs) : ∀ x ∈ qs.flatMap QuadComb.vars, (SMap.get w x).isSome := by
  rw [mapM_option_eq_some] at h
  induction h with
  | nil => simp
  | cons h1 _ ih =>
    intro x hx
    simp only [List.flatMap_cons, List.mem_append] at hx
    exact hx.elim ((evalQuad_eq_some.1 h1).1 x) (ih x)

theorem insertOutputs_get {os : List Variable} {rs : List F} {w w' : Witness F} (h : insertOutputs w os rs = some w')
    {x : Variable} (hx : x ∉ os) : SMap.get w' x = SMap.get w x := by
  induction os generalizing w rs with
  | nil => simp [insertOutputs] at h; rw [h]
  | cons o os ih =>
    cases rs with
    | nil => simp [insertOutputs] at h
    | cons r rs =>
      simp only [insertOutputs] at h
      simp only [List.mem_cons, not_or] at hx
      rw [ih h hx.2, SMap.get_insert_ne _ _ hx.1]

theorem insertOutputs_keys {os : List Variable} {rs : List F} {w w' : Witness F} (h : insertOutputs w os rs = some w')
    (x : Variable) : (SMap.get w' x).isSome ↔ x ∈ os ∨ (SMap.get w x).isSome := by
  induction os generalizing w rs with
  | nil => simp [insertOutputs] at h; simp [h]
  | cons o os ih =>
    cases rs with
    | nil => simp [insertOutputs] at h
    | cons r rs =>
      simp only [insertOutputs] at h
      rw [ih h, SMap.get_insert, List.mem_cons]
      by_cases hx : x = o
      · simp [hx]
      · simp [hx]

theorem insertOutputs_sorted {os : List Variable} {rs : List F} {w w' : Witness F}
    (h : insertOutputs w os rs = some w') (hs : SMap.Sorted w) : SMap.Sorted w' := by
  induction os generalizing w rs with
  | nil => simp [insertOutputs] at h; rw [← h]; exact hs
  | cons o os ih =>
    cases rs with
    | nil => simp [insertOutputs] at h
    | cons r rs =>
      simp only [insertOutputs] at h
      exact ih h (SMap.sorted_insert hs _ _)

/-- Inserting the values of `ρ` keeps the witness consistent with `ρ`. -/
theorem insertOutputs_agree {os : List Variable} {rs : List F} {w w' : Witness F} {ρ : Assignment F}
    (h : insertOutputs w os rs = some w') (hr : os.map ρ = rs)
    (ha : ∀ x v, SMap.get w x = some v → v = ρ x) : ∀ x v, SMap.get w' x = some v → v = ρ x := by
  induction os generalizing w rs with
  | nil => simp [insertOutputs] at h; rw [← h]; exact ha
  | cons o os ih =>
    cases rs with
    | nil => simp [insertOutputs] at h
    | cons r rs =>
      simp only [insertOutputs] at h
      simp only [List.map_cons, List.cons.injEq] at hr
      refine ih h hr.2 ?_
      intro x v hx
      rw [SMap.get_insert] at hx
      split at hx
      · rename_i e; simp only [Option.some.injEq] at hx; rw [← hx, e, hr.1]
      · exact ha x v hx

theorem insertOutputs_isSome {os : List Variable} {rs : List F} {w : Witness F} (h : os.length ≤ rs.length) :
    ∃ w', insertOutputs w os rs = some w' := by
  induction os generalizing w rs with
  | nil => exact ⟨w, rfl⟩
  | cons o os ih =>
    cases rs with
    | nil => simp at h
    | cons r rs => simp only [insertOutputs]; exact ih (by simpa using h)

theorem initWitness_aux (l : List (Parameter × F)) (w : Witness F) (x : Variable) :
    (SMap.get (l.foldl (fun w ai => SMap.insert w ai.1.id ai.2) w) x).isSome ↔
      x ∈ l.map (fun ai => ai.1.id) ∨ (SMap.get w x).isSome := by
  induction l generalizing w with
  | nil => simp
  | cons a l ih =>
    rw [List.foldl_cons, ih, SMap.get_insert, List.map_cons, List.mem_cons]
    by_cases hx : x = a.1.id
    · simp [hx]
    · simp [hx]

theorem initWitness_aux_ne (l : List (Parameter × F)) (w : Witness F) (x : Variable)
    (h : x ∉ l.map (fun ai => ai.1.id)) :
    SMap.get (l.foldl (fun w ai => SMap.insert w ai.1.id ai.2) w) x = SMap.get w x := by
  induction l generalizing w with
  | nil => simp
  | cons a l ih =>
    simp only [List.map_cons, List.mem_cons, not_or] at h
    rw [List.foldl_cons, ih _ h.2, SMap.get_insert_ne _ _ h.1]

theorem zip_map_id (args : List Parameter) (inputs : List F) (h : args.length = inputs.length) :
    (args.zip inputs).map (fun ai => ai.1.id) = args.map Parameter.id := by
  induction args generalizing inputs with
  | nil => simp
  | cons a args ih =>
    cases inputs with
    | nil => simp at h
    | cons i inputs => simp at h; simp [ih inputs h]

theorem initWitness_keys (args : List Parameter) (inputs : List F) (h : args.length = inputs.length) (x : Variable) :
    (SMap.get (initWitness args inputs) x).isSome ↔ x ∈ initialVars args := by
  unfold initWitness initialVars
  rw [initWitness_aux, zip_map_id _ _ h, SMap.get_insert, List.mem_cons, or_comm]
  by_cases hx : x = Variable.one <;> simp [hx]

theorem initWitness_sorted (args : List Parameter) (inputs : List F) : SMap.Sorted (initWitness args inputs) := by
  unfold initWitness
  have aux : ∀ (l : List (Parameter × F)) (w : Witness F), SMap.Sorted w →
      SMap.Sorted (l.foldl (fun w ai => SMap.insert w ai.1.id ai.2) w) := by
    intro l
    induction l with
    | nil => intro w h; exact h
    | cons a l ih => intro w h; exact ih _ (SMap.sorted_insert h _ _)
  exact aux _ _ (SMap.sorted_insert SMap.sorted_nil _ _)

theorem initWitness_one (args : List Parameter) (inputs : List F) (h : args.length = inputs.length)
    (hd : ArgsDistinct args) : SMap.get (initWitness args inputs) Variable.one = some 1 := by
  unfold initWitness
  rw [initWitness_aux_ne]
  · simp
  · rw [zip_map_id _ _ h]
    exact (List.nodup_cons.1 hd).1

theorem initWitness_args (args : List Parameter) (inputs : List F) (h : args.length = inputs.length)
    (hd : ArgsDistinct args) : List.Forall₂ (fun (a : Parameter) v => SMap.get (initWitness args inputs) a.id = some v) args inputs := by
  unfold initWitness
  have hn := (List.nodup_cons.1 hd).2
  generalize SMap.insert ([] : SMap F) Variable.one 1 = w
  induction args generalizing inputs w with
  | nil => cases inputs with
    | nil => exact List.Forall₂.nil
    | cons i inputs => simp at h
  | cons a args ih => cases inputs with
    | nil => simp at h
    | cons i inputs =>
      simp only [List.length_cons, Nat.add_right_cancel_iff] at h
      simp only [List.map_cons, List.nodup_cons] at hn
      simp only [List.zip_cons_cons, List.foldl_cons]
      refine List.Forall₂.cons ?_ ?_
      · rw [initWitness_aux_ne, SMap.get_insert_self]
        rw [zip_map_id _ _ h]; exact hn.1
      · refine ih _ h ?_ hn.2 _
        unfold ArgsDistinct initialVars at hd ⊢
        simp only [List.map_cons, List.nodup_cons, List.mem_cons, not_or] at hd ⊢
        exact ⟨hd.1.2, hd.2.2⟩

/-- Any assignment that gives `~one` the value 1 and the arguments their inputs agrees with the initial witness. -/
theorem initWitness_agree (args : List Parameter) (inputs : List F) (ρ : Assignment F) (h1 : OneIsOne ρ)
    (ha : args.map (fun a => ρ a.id) = inputs) :
    ∀ x v, SMap.get (initWitness args inputs) x = some v → v = ρ x := by
  unfold initWitness
  have aux : ∀ (l : List (Parameter × F)) (w : Witness F), (∀ ai ∈ l, ai.2 = ρ ai.1.id) →
      (∀ x v, SMap.get w x = some v → v = ρ x) →
      ∀ x v, SMap.get (l.foldl (fun w ai => SMap.insert w ai.1.id ai.2) w) x = some v → v = ρ x := by
    intro l
    induction l with
    | nil => intro w _ h; exact h
    | cons a l ih =>
      intro w hl h
      refine ih _ (fun ai hai => hl ai (List.mem_cons_of_mem _ hai)) ?_
      intro x v hx
      rw [SMap.get_insert] at hx
      split at hx
      · rename_i e; simp only [Option.some.injEq] at hx; rw [← hx, e]; exact hl a (by simp)
      · exact h x v hx
  refine aux _ _ ?_ ?_
  · intro ai hai
    subst ha
    obtain ⟨i, hi⟩ := List.mem_iff_getElem.1 hai
    obtain ⟨hi, e⟩ := hi
    rw [← e]; simp
  · intro x v hx
    rw [SMap.get_insert] at hx
    split at hx
    · rename_i e; simp only [Option.some.injEq] at hx; rw [← hx, e]; exact h1.symm
    · simp at hx

end generic

section interp
variable {p : ℕ} [Fact p.Prime] {Z : Type _} (sem : SolverSem (ZMod p) Z) (oor : Bool) (solvers : List (Solver Z))

/-- What a successful step does. -/
theorem execStmt_ok {w w' : Witness (ZMod p)} {s : Stmt (ZMod p) Z} (h : execStmt sem oor solvers w s = .ok w')
    (hs : SMap.Sorted w) :
    SMap.Sorted w' ∧
    (∀ x, (SMap.get w' x).isSome ↔ (SMap.get w x).isSome ∨ x ∈ s.vars) ∧
    (∀ x, (SMap.get w x).isSome → (∀ d, s = .directive d → x ∉ d.outputs) → SMap.get w' x = SMap.get w x) ∧
    s.Sat (assignmentOf w') := by
  cases s with
  | block ss => simp [execStmt] at h
  | constraint c =>
    simp only [execStmt] at h
    split at h
    · rename_i ha
      split at h
      · rename_i v x k tl hq hl
        simp only [Except.ok.injEq] at h
        subst h
        obtain ⟨hv, hval⟩ := evalQuad_eq_some.1 hq
        rw [hl] at ha
        simp only [isAssignee] at ha
        cases tl with
        | cons _ _ => simp at ha
        | nil =>
        simp only [Bool.and_eq_true, decide_eq_true_eq, Bool.not_eq_eq_eq_not, Bool.not_true,
          SMap.contains] at ha
        obtain ⟨rfl, hnb⟩ := ha
        have hne : ∀ y, (SMap.get w y).isSome → y ≠ x := by
          rintro y hy rfl; rw [hnb] at hy; simp at hy
        refine ⟨SMap.sorted_insert hs _ _, ?_, ?_, ?_⟩
        · intro y
          rw [SMap.get_insert]
          simp only [Stmt.vars, hl, List.mem_append, LinComb.vars, List.map_cons, List.map_nil,
            List.mem_singleton]
          by_cases hy : y = x
          · simp [hy]
          · simp only [hy, if_false, or_false]
            exact ⟨Or.inl, fun h => h.elim id (hv y)⟩
        · intro y hy _
          exact SMap.get_insert_ne _ _ (hne y hy)
        · refine Stmt.Sat.constraint ?_
          unfold Constraint.Sat
          rw [hl, ← QuadComb.val_congr (ρ := assignmentOf w), hval]
          · simp [assignmentOf]
          · intro y hy
            simp only [assignmentOf]
            rw [SMap.get_insert_ne _ _ (hne y (hv y hy))]
      · simp at h
    · split at h
      · rename_i l r hq hlin
        split at h
        · simp at h
        · rename_i hlr
          simp only [Except.ok.injEq] at h
          subst h
          obtain ⟨hv, hval⟩ := evalQuad_eq_some.1 hq
          obtain ⟨hv', hval'⟩ := evalLin_eq_some.1 hlin
          refine ⟨hs, ?_, fun _ _ _ => rfl, Stmt.Sat.constraint ?_⟩
          · intro x
            simp only [Stmt.vars, List.mem_append]
            exact ⟨Or.inl, fun h => h.elim id fun h => h.elim (hv x) (hv' x)⟩
          · unfold Constraint.Sat
            rw [hval, hval']
            exact Decidable.byContradiction hlr
      · simp at h
  | directive d =>
    simp only [execStmt] at h
    split at h
    · simp at h
    · rename_i inputs hin
      split at h
      · simp at h
      · rename_i res hres
        split at h
        · simp at h
        · rename_i w'' hw
          simp only [Except.ok.injEq] at h
          subst h
          have hv : ∀ x ∈ d.inputs.flatMap QuadComb.vars, (SMap.get w x).isSome := by
            exact mapM_evalQuad_bound hin
          refine ⟨insertOutputs_sorted hw hs, ?_, ?_, Stmt.Sat.directive d⟩
          · intro x
            rw [insertOutputs_keys hw]
            simp only [Stmt.vars, List.mem_append]
            constructor
            · rintro (h | h)
              · exact Or.inr (Or.inr h)
              · exact Or.inl h
            · rintro (h | h | h)
              · exact Or.inr h
              · exact Or.inr (hv x h)
              · exact Or.inl h
          · intro x _ hx
            exact insertOutputs_get hw (hx d rfl)
  | log exprs =>
    simp only [execStmt] at h
    split at h
    · simp at h
    · rename_i vs hvs
      simp only [Except.ok.injEq] at h
      subst h
      refine ⟨hs, ?_, fun _ _ _ => rfl, Stmt.Sat.log _⟩
      have hv : ∀ x ∈ exprs.flatMap (fun e => e.flatMap LinComb.vars), (SMap.get w x).isSome := by
        rw [mapM_option_eq_some] at hvs
        induction hvs with
        | nil => simp
        | cons h1 _ ih =>
          intro x hx
          simp only [List.flatMap_cons, List.mem_append] at hx
          refine hx.elim ?_ (ih x)
          rw [mapM_option_eq_some] at h1
          clear ih hx
          induction h1 with
          | nil => simp
          | cons h2 _ ih2 =>
            intro hx
            simp only [List.flatMap_cons, List.mem_append] at hx
            exact hx.elim ((evalLin_eq_some.1 h2).1 x) ih2
      intro x
      exact ⟨Or.inl, fun h => h.elim id fun h => hv x (by simpa only [Stmt.vars] using h)⟩

theorem Stmt.mem_varsL {F : Type _} [Field F] {Z : Type _} {ss : List (Stmt F Z)} {x : Variable} :
    x ∈ Stmt.varsL ss ↔ ∃ s ∈ ss, x ∈ s.vars := by
  induction ss with
  | nil => simp [Stmt.varsL]
  | cons s ss ih => simp [Stmt.varsL, ih]

theorem Stmt.Sat_congr {F : Type _} [Field F] {Z : Type _} {ρ σ : Assignment F} {s : Stmt F Z} (hs : s.Sat ρ)
    (h : ∀ x ∈ s.vars, ρ x = σ x) : s.Sat σ := by
  induction hs with
  | block hb ih =>
    refine Stmt.Sat.block fun s hs => ih s hs fun x hx => h x ?_
    simp only [Stmt.vars, Stmt.mem_varsL]
    exact ⟨s, hs, hx⟩
  | constraint hc =>
    refine Stmt.Sat.constraint ?_
    unfold Constraint.Sat at *
    rw [← QuadComb.val_congr (ρ := ρ), ← LinComb.val_congr (ρ := ρ), hc]
    · intro x hx; exact h x (by simp only [Stmt.vars, List.mem_append]; exact Or.inr hx)
    · intro x hx; exact h x (by simp only [Stmt.vars, List.mem_append]; exact Or.inl hx)
  | directive d => exact Stmt.Sat.directive d
  | log l => exact Stmt.Sat.log l

theorem execStmts_ok {w w' : Witness (ZMod p)} {ss : List (Stmt (ZMod p) Z)} {seen : List Variable}
    (h : execStmts sem oor solvers w ss = .ok w') (hs : SMap.Sorted w)
    (hseen : ∀ x, (SMap.get w x).isSome ↔ x ∈ seen) :
    SMap.Sorted w' ∧
    (∀ x, (SMap.get w' x).isSome ↔ x ∈ seen ∨ ∃ s ∈ ss, x ∈ s.vars) ∧
    (DirectivesFresh seen ss →
      (∀ x, (SMap.get w x).isSome → SMap.get w' x = SMap.get w x) ∧ SatAll (assignmentOf w') ss) := by
  induction ss generalizing w seen with
  | nil =>
    simp only [execStmts, Except.ok.injEq] at h
    subst h
    exact ⟨hs, by simpa using hseen, fun _ => ⟨fun _ _ => rfl, by simp [SatAll]⟩⟩
  | cons s ss ih =>
    simp only [execStmts] at h
    split at h
    · simp at h
    · rename_i w1 h1
      obtain ⟨s1, k1, p1, sat1⟩ := execStmt_ok sem oor solvers h1 hs
      have hseen1 : ∀ x, (SMap.get w1 x).isSome ↔ x ∈ seen ++ s.vars := by
        intro x; rw [k1, List.mem_append, hseen]
      obtain ⟨s2, k2, f2⟩ := ih h s1 hseen1
      refine ⟨s2, ?_, ?_⟩
      · intro x
        rw [k2, List.mem_append]
        simp only [List.mem_cons, exists_eq_or_imp]
        exact or_assoc
      · intro hf
        have hf2 := f2 hf.2
        have hfr : ∀ x, (SMap.get w x).isSome → ∀ d, s = .directive d → x ∉ d.outputs := by
          intro x hx d hd ho
          have := hf.1
          rw [hd] at this
          exact this x ho ((hseen x).1 hx)
        refine ⟨?_, ?_⟩
        · intro x hx
          have e1 := p1 x hx (hfr x hx)
          rw [hf2.1 x (by rw [e1]; exact hx), e1]
        · intro t ht
          simp only [List.mem_cons] at ht
          rcases ht with rfl | ht
          · refine Stmt.Sat_congr sat1 ?_
            intro x hx
            simp only [assignmentOf]
            rw [hf2.1 x ((k1 x).2 (Or.inr hx))]
          · exact hf2.2 t ht

/-- A step run under a witness consistent with `ρ`. -/
def HonestStmt (ρ : Assignment (ZMod p)) : Stmt (ZMod p) Z → Prop
  | .directive d => executeSolver sem d.solver (d.inputs.map (QuadComb.val ρ)) solvers = .ok (d.outputs.map ρ)
  | _ => True

theorem evalLin_agree {F : Type _} [Field F] {w : Witness F} {ρ : Assignment F} (ha : ∀ x v, SMap.get w x = some v → v = ρ x) {l : LinComb F} {v : F}
    (h : evalLin w l = some v) : v = l.val ρ := by
  obtain ⟨hb, hv⟩ := evalLin_eq_some.1 h
  rw [← hv]
  apply LinComb.val_congr
  intro x hx
  obtain ⟨v, hv⟩ := Option.isSome_iff_exists.1 (hb x hx)
  simp [assignmentOf, hv, ha x v hv]

theorem evalQuad_agree {F : Type _} [Field F] {w : Witness F} {ρ : Assignment F} (ha : ∀ x v, SMap.get w x = some v → v = ρ x) {q : QuadComb F} {v : F}
    (h : evalQuad w q = some v) : v = q.val ρ := by
  obtain ⟨hb, hv⟩ := evalQuad_eq_some.1 h
  rw [← hv]
  apply QuadComb.val_congr
  intro x hx
  obtain ⟨v, hv⟩ := Option.isSome_iff_exists.1 (hb x hx)
  simp [assignmentOf, hv, ha x v hv]

theorem evalQuads_agree {F : Type _} [Field F] {w : Witness F} {ρ : Assignment F} (ha : ∀ x v, SMap.get w x = some v → v = ρ x)
    {qs : List (QuadComb F)} {vs : List F}
    (h : qs.mapM (evalQuad w) = some vs) : vs = qs.map (QuadComb.val ρ) := by
  rw [mapM_option_eq_some] at h
  induction h with
  | nil => rfl
  | cons h1 _ ih => rw [List.map_cons, evalQuad_agree ha h1, ih]

theorem execStmt_honest {w : Witness (ZMod p)} {s : Stmt (ZMod p) Z} {ρ : Assignment (ZMod p)}
    (ha : ∀ x v, SMap.get w x = some v → v = ρ x) (hh : HonestStmt sem solvers ρ s) (hsat : s.Sat ρ) :
    (∀ w', execStmt sem false solvers w s = .ok w' → ∀ x v, SMap.get w' x = some v → v = ρ x) ∧
    (∀ e, execStmt sem false solvers w s = .error e → e = .panic) := by
  cases s with
  | block ss => exact ⟨by simp [execStmt], by simp [execStmt, eq_comm]⟩
  | constraint c =>
    cases hsat with
    | constraint hc =>
    simp only [execStmt]
    split
    · rename_i has
      split
      · rename_i v x k tl hq hl
        refine ⟨?_, by simp⟩
        intro w' h
        simp only [Except.ok.injEq] at h
        subst h
        rw [hl] at has
        cases tl with
        | cons _ _ => simp [isAssignee] at has
        | nil =>
        simp only [isAssignee, Bool.and_eq_true, decide_eq_true_eq] at has
        obtain ⟨rfl, _⟩ := has
        intro y u hy
        rw [SMap.get_insert] at hy
        split at hy
        · rename_i e
          simp only [Option.some.injEq] at hy
          rw [← hy, e, evalQuad_agree ha hq, hc, hl]; simp
        · exact ha y u hy
      · exact ⟨by simp, by simp [eq_comm]⟩
    · split
      · rename_i l r hq hlin
        have e1 := evalQuad_agree ha hq
        have e2 := evalLin_agree ha hlin
        have : l = r := by rw [e1, e2]; exact hc
        simp only [this, ne_eq, not_true_eq_false, if_false]
        refine ⟨?_, by simp⟩
        intro w' h
        simp only [Except.ok.injEq] at h
        subst h
        exact ha
      · exact ⟨by simp, by simp [eq_comm]⟩
  | directive d =>
    simp only [execStmt]
    split
    · exact ⟨by simp, by simp [eq_comm]⟩
    · rename_i inputs hin
      have e := evalQuads_agree ha hin
      have hres : runDirective sem false solvers d.solver inputs = Except.ok (d.outputs.map ρ) := by
        have hh' : executeSolver sem d.solver inputs solvers = .ok (d.outputs.map ρ) := by rw [e]; exact hh
        unfold runDirective
        split
        · rename_i h _ ; simp at h
        · exact hh'
      rw [hres]
      obtain ⟨w', hw'⟩ := insertOutputs_isSome (w := w) (os := d.outputs) (rs := d.outputs.map ρ) (by simp)
      simp only [hw']
      refine ⟨?_, by simp⟩
      intro w'' h
      simp only [Except.ok.injEq] at h
      subst h
      exact insertOutputs_agree hw' rfl ha
  | log exprs =>
    simp only [execStmt]
    split
    · exact ⟨by simp, by simp [eq_comm]⟩
    · refine ⟨?_, by simp⟩
      intro w' h
      simp only [Except.ok.injEq] at h
      subst h
      exact ha

theorem execStmts_honest {w : Witness (ZMod p)} {ss : List (Stmt (ZMod p) Z)} {ρ : Assignment (ZMod p)}
    (ha : ∀ x v, SMap.get w x = some v → v = ρ x) (hh : ∀ s ∈ ss, HonestStmt sem solvers ρ s) (hsat : SatAll ρ ss) :
    (∀ w', execStmts sem false solvers w ss = .ok w' → ∀ x v, SMap.get w' x = some v → v = ρ x) ∧
    (∀ e, execStmts sem false solvers w ss = .error e → e = .panic) := by
  induction ss generalizing w with
  | nil =>
    refine ⟨?_, by simp [execStmts]⟩
    intro w' h
    simp only [execStmts, Except.ok.injEq] at h
    subst h; exact ha
  | cons s ss ih =>
    have h1 := execStmt_honest sem solvers ha (hh s (by simp)) (hsat s (by simp))
    simp only [execStmts]
    cases hx : execStmt sem false solvers w s with
    | error e =>
      refine ⟨by simp, ?_⟩
      intro e' he
      simp only [Except.error.injEq] at he
      rw [← he]; exact h1.2 e hx
    | ok w1 =>
      exact ih (h1.1 w1 hx) (fun t ht => hh t (List.mem_cons_of_mem _ ht))
        (fun t ht => hsat t (List.mem_cons_of_mem _ ht))

end interp
end Zok

namespace Zok
variable {p : ℕ} [Fact p.Prime] {Z : Type _} (sem : SolverSem (ZMod p) Z) (solvers : List (Solver Z))

theorem mapM_isSome {α β : Type _} {f : α → Option β} {l : List α} (h : ∀ a ∈ l, (f a).isSome) :
    ∃ r, l.mapM f = some r := by
  induction l with
  | nil => exact ⟨[], by simp⟩
  | cons a l ih =>
    obtain ⟨b, hb⟩ := Option.isSome_iff_exists.1 (h a (by simp))
    obtain ⟨bs, hbs⟩ := ih fun x hx => h x (List.mem_cons_of_mem _ hx)
    exact ⟨b :: bs, by simp [hb, hbs]⟩

theorem execStmts_complete {w : Witness (ZMod p)} {ss : List (Stmt (ZMod p) Z)} {seen : List Variable}
    {ρ : Assignment (ZMod p)} (hs : SMap.Sorted w)
    (hseen : ∀ x, (SMap.get w x).isSome ↔ x ∈ seen) (hw : WellScoped seen ss)
    (ha : ∀ x v, SMap.get w x = some v → v = ρ x) (hh : ∀ s ∈ ss, HonestStmt sem solvers ρ s) (hsat : SatAll ρ ss) :
    ∃ w', execStmts sem false solvers w ss = .ok w' := by
  induction ss generalizing w seen with
  | nil => exact ⟨w, rfl⟩
  | cons s ss ih =>
    have step : ∃ w1, execStmt sem false solvers w s = .ok w1 := by
      have hw1 := hw.1
      cases s with
      | block _ => exact absurd hw1 (by simp)
      | constraint c =>
        obtain ⟨hq, hl⟩ := hw1
        obtain ⟨v, hv⟩ : ∃ v, evalQuad w c.quad = some v :=
          ⟨_, evalQuad_eq_some.2 ⟨fun x hx => (hseen x).2 (hq x hx), rfl⟩⟩
        have hnp : ∀ e, execStmt sem false solvers w (.constraint c) = .error e → e = .panic :=
          (execStmt_honest sem solvers ha (hh _ (by simp)) (hsat _ (by simp))).2
        by_cases hass : isAssignee c.lin w = true
        · cases hlin : c.lin with
          | nil => rw [hlin] at hass; simp [isAssignee] at hass
          | cons t tl =>
            simp only [execStmt, hass, if_true, hv]
            rw [hlin]
            exact ⟨_, rfl⟩
        · have hlb : ∀ x ∈ c.lin.vars, (SMap.get w x).isSome := by
            rcases hl with ⟨x, hx⟩ | hl
            · intro y hy
              rw [hx] at hy hass
              simp only [LinComb.vars, List.map_cons, List.map_nil, List.mem_singleton] at hy
              subst hy
              simpa [isAssignee, SMap.contains, ← Option.isSome_iff_ne_none] using hass
            · exact fun x hx => (hseen x).2 (hl x hx)
          have hlv : evalLin w c.lin = some (c.lin.val (assignmentOf w)) := evalLin_eq_some.2 ⟨hlb, rfl⟩
          simp only [execStmt, hass, Bool.false_eq_true, if_false, hv, hlv] at hnp ⊢
          split at hnp
          · have := hnp _ rfl; simp at this
          · rename_i h; rw [if_neg h]; exact ⟨_, rfl⟩
      | directive d =>
        have hb : ∀ q ∈ d.inputs, (evalQuad w q).isSome := by
          intro q hq
          rw [Option.isSome_iff_exists]
          exact ⟨_, evalQuad_eq_some.2 ⟨fun x hx => (hseen x).2 (hw1 x (List.mem_flatMap.2 ⟨q, hq, hx⟩)), rfl⟩⟩
        obtain ⟨inputs, hin⟩ := mapM_isSome hb
        have e := evalQuads_agree ha hin
        have hd : executeSolver sem d.solver (d.inputs.map (QuadComb.val ρ)) solvers = .ok (d.outputs.map ρ) :=
          hh (.directive d) (by simp)
        have hres : runDirective sem false solvers d.solver inputs = Except.ok (d.outputs.map ρ) := by
          have hh' : executeSolver sem d.solver inputs solvers = .ok (d.outputs.map ρ) := by rw [e]; exact hd
          unfold runDirective
          split
          · rename_i h _ ; simp at h
          · exact hh'
        obtain ⟨w', hw'⟩ := insertOutputs_isSome (w := w) (os := d.outputs) (rs := d.outputs.map ρ) (by simp)
        exact ⟨w', by simp only [execStmt, hin, hres, hw']⟩
      | log l =>
        have hb : ∀ e ∈ l, (e.mapM (evalLin w)).isSome := by
          intro e he
          obtain ⟨r, hr⟩ := mapM_isSome (f := evalLin w) (l := e) (by
            intro c hc
            rw [Option.isSome_iff_exists]
            exact ⟨_, evalLin_eq_some.2 ⟨fun x hx => (hseen x).2 (hw1 x
              (List.mem_flatMap.2 ⟨e, he, List.mem_flatMap.2 ⟨c, hc, hx⟩⟩)), rfl⟩⟩)
          rw [hr]; rfl
        obtain ⟨r, hr⟩ := mapM_isSome hb
        exact ⟨w, by simp only [execStmt, hr]⟩
    obtain ⟨w1, h1⟩ := step
    obtain ⟨s1, k1, _, _⟩ := execStmt_ok sem false solvers h1 hs
    have ha1 := (execStmt_honest sem solvers ha (hh s (by simp)) (hsat s (by simp))).1 w1 h1
    obtain ⟨w', hw'⟩ := ih s1 (fun x => by rw [k1, List.mem_append, hseen]) hw.2 ha1
      (fun t ht => hh t (List.mem_cons_of_mem _ ht)) (fun t ht => hsat t (List.mem_cons_of_mem _ ht))
    exact ⟨w', by simp only [execStmts, h1, hw']⟩

end Zok
