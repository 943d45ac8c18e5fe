import Verif.Lemmas.Scope

/-
Scoping of the gadgets and of the flattening of expressions.
-/

set_option linter.unusedSectionVars false
set_option linter.unusedVariables false

namespace Zok
variable {p : ℕ} {Z : Type} [Fact p.Prime] {A D D' E E' : Set Variable}

/-- The symbols of the main loop of `constant_le_check`. -/
def leAll (l : List (FlatExpr (ZMod p) × Bool × Variable × Variable)) : List Variable :=
  l.flatMap fun t => [t.2.2.1, t.2.2.2]

theorem leSyms_run {k : ℕ} {st st' : FlState p Z} {ps : List (Variable × Variable)}
    (h : Flt.leSyms k st = some (ps, st')) :
    st' = { st with next := st.next + 2 * k } ∧ (ps.flatMap fun t => [t.1, t.2]) = syms st.next (2 * k) := by
  induction k generalizing st ps with
  | zero => cases h; exact ⟨rfl, rfl⟩
  | succ k ih =>
    rw [Flt.leSyms] at h
    obtain ⟨x, st1, h1, h2⟩ := FlatM.bind_some h
    obtain ⟨y, st2, h3, h4⟩ := FlatM.bind_some h2
    obtain ⟨r, st3, h5, h6⟩ := FlatM.bind_some h4
    have h7 : some ((x, y) :: r, st3) = some (ps, st') := h6
    cases h7; cases h1; cases h3
    obtain ⟨g1, g2⟩ := ih h5
    refine ⟨?_, ?_⟩
    · rw [g1]
      simp only [FlState.mk.injEq, and_self, and_true]
      omega
    · rw [List.flatMap_cons, g2, show 2 * (k + 1) = (2 * k + 1) + 1 by omega, syms_succ, syms_succ]
      rfl

theorem leAll_zip (a : List (FlatExpr (ZMod p))) (b : List Bool) (ps : List (Variable × Variable)) :
    (leAll (List.zip a (List.zip b ps))).Sublist (ps.flatMap fun t => [t.1, t.2]) := by
  induction ps generalizing a b with
  | nil => simp [leAll]
  | cons t ps ih =>
    cases b with
    | nil => simp [leAll]
    | cons b bs =>
      cases a with
      | nil => simp [leAll]
      | cons a as =>
        have := ih as bs
        simp only [leAll, List.zip_cons_cons, List.flatMap_cons, List.cons_append, List.nil_append] at this ⊢
        exact (this.cons_cons _).cons_cons _

/-- The main loop of `constant_le_check`. -/
theorem leLoop_scope (n : ℕ) (l : List (FlatExpr (ZMod p) × Bool × Variable × Variable)) :
    ∀ (st : FlState p Z) res st' D, Flt.leLoop l st = some (res, st') → W A st D → n ≤ st.next →
      (∀ t ∈ l, t.1.In D) → (leAll l).Nodup → (∀ t rest, l = t :: rest → t.2.2.2 ∈ D ∧ t.2.2.1 ∉ D ∧
        ∀ x ∈ leAll rest, x ∉ D) → (∀ x ∈ leAll l, ∃ k, n ≤ k ∧ k < st.next ∧ x = Variable.new k) →
      ∃ D', W A st' D' ∧ D ⊆ D' ∧ Frame n D D' ∧ st.next ≤ st'.next ∧ Ins D' res := by
  induction l with
  | nil =>
    intro st res st' D hm hW hn _ _ _ _
    cases hm
    exact ⟨D, hW, le_refl _, .refl, le_rfl, .nil⟩
  | cons t rest ih =>
    obtain ⟨a, b, nsr, su⟩ := t
    intro st res st' D hm hW hn hin hnd hd hsym
    obtain ⟨hsu, hnsr, hrest⟩ := hd _ _ rfl
    simp only at hsu hnsr
    have ha : a.In D := hin (a, b, nsr, su) (by simp)
    have hall : leAll ((a, b, nsr, su) :: rest) = nsr :: su :: leAll rest := rfl
    rw [hall] at hnd hsym
    obtain ⟨hn1, hn2⟩ := List.nodup_cons.1 hnd
    obtain ⟨hn3, hn4⟩ := List.nodup_cons.1 hn2
    -- adding one pending symbol
    have add : ∀ (st1 : FlState p Z) (D1 : Set Variable) (x : Variable) (e : FlatExpr (ZMod p)), W A st1 D1 →
        st1.next = st.next → e.In D1 → x ∉ D1 → (∃ k, n ≤ k ∧ k < st.next ∧ x = Variable.new k) →
        W A { st1 with out := st1.out ++ [.definition x e] } (insert x D1) := by
      intro st1 D1 x e w1 hnx he hx hk
      refine w1.step (n := st1.next) (.definition he hx) (Set.subset_insert _ _) ?_
      rintro k hk' (h | h)
      · obtain ⟨j, _, h2, h3⟩ := hk
        have := new_inj (h.trans h3); omega
      · exact w1.lim k hk' h
    have frm : ∀ (D1 : Set Variable) (x : Variable), (∃ k, n ≤ k ∧ k < st.next ∧ x = Variable.new k) →
        Frame n D1 (insert x D1) := by
      rintro D1 x ⟨k, h1, _, h2⟩ y (rfl | h)
      · exact Or.inr ⟨k, h1, h2⟩
      · exact Or.inl h
    cases b with
    | true =>
      unfold Flt.leLoop at hm
      obtain ⟨_, st1, h1, h2⟩ := FlatM.bind_some hm
      cases h1
      have w1 := add st D nsr a hW rfl ha hnsr (hsym nsr (by simp))
      cases rest with
      | nil =>
        obtain ⟨_, st2, h3, h4⟩ := FlatM.bind_some h2
        cases h3; cases h4
        exact ⟨_, w1, Set.subset_insert _ _, frm D nsr (hsym nsr (by simp)), le_rfl, .nil⟩
      | cons t' rest' =>
        obtain ⟨a', b', nsr', su'⟩ := t'
        obtain ⟨_, st2, h3, h4⟩ := FlatM.bind_some h2
        cases h3
        have hall' : leAll ((a', b', nsr', su') :: rest') = nsr' :: su' :: leAll rest' := rfl
        rw [hall'] at hn1 hn3 hn4 hrest hsym
        obtain ⟨hn5, hn6⟩ := List.nodup_cons.1 hn4
        obtain ⟨hn7, hn8⟩ := List.nodup_cons.1 hn6
        have hsu' : su' ∉ (insert nsr D : Set Variable) := by
          rintro (h | h)
          · exact hn1 (by simp [h])
          · exact hrest su' (by simp) h
        have w2 := add _ (insert nsr D) su' (.mul (.ident su) (.ident nsr)) w1 rfl
          ⟨Or.inr hsu, Set.mem_insert _ _⟩ hsu' (hsym su' (by simp))
        have sub : D ⊆ (insert su' (insert nsr D) : Set Variable) :=
          (Set.subset_insert _ _).trans (Set.subset_insert _ _)
        refine Exists.elim (ih _ _ _ _ h4 w2 hn (fun t ht => (hin t (by simp [ht])).mono sub) hn4 ?_ ?_) ?_
        rotate_left 2
        · rintro D2 ⟨w3, s2, f2, n2, p2⟩
          exact ⟨D2, w3, sub.trans s2, (frm D nsr (hsym nsr (by simp))).trans le_rfl ((frm _ su' (hsym su' (by simp))).trans
            le_rfl f2), n2, p2⟩
        · intro t rest hr
          cases hr
          refine ⟨Set.mem_insert _ _, ?_, ?_⟩
          · rintro (h | h | h)
            · exact hn5 (by simp [show nsr' = su' from h])
            · exact hn1 (by simp [show nsr' = nsr from h])
            · exact hrest nsr' (by simp) h
          · rintro x hx (h | h | h)
            · exact hn7 (by rw [← h]; exact hx)
            · exact hn1 (by rw [← h]; simp [hx])
            · exact hrest x (by simp [hx]) h
        · intro x hx; exact hsym x (by simp only [List.mem_cons]; rw [hall'] at hx; simp only [List.mem_cons] at hx; tauto)
    | false =>
      unfold Flt.leLoop at hm
      obtain ⟨_, st1, h1, h2⟩ := FlatM.bind_some hm
      obtain ⟨nm, st2, h3, h4⟩ := FlatM.bind_some h2
      obtain ⟨_, st3, h5, h6⟩ := FlatM.bind_some h4
      obtain ⟨res', st4, h7, h8⟩ := FlatM.bind_some h6
      have h9 : some (_ :: res', st4) = some (res, st') := h8
      cases h9; cases h3; cases h5
      -- the definition of the next `size_unknown`
      have key : ∃ D1, W A st1 D1 ∧ D ⊆ D1 ∧ Frame n D D1 ∧ st1.next = st.next ∧
          (∀ t r, rest = t :: r → t.2.2.2 ∈ D1 ∧ t.2.2.1 ∉ D1 ∧ ∀ x ∈ leAll r, x ∉ D1) := by
        cases rest with
        | nil =>
          cases h1
          exact ⟨D, hW, le_refl _, .refl, rfl, fun t r h => by cases h⟩
        | cons t' rest' =>
          obtain ⟨a', b', nsr', su'⟩ := t'
          cases h1
          have hall' : leAll ((a', b', nsr', su') :: rest') = nsr' :: su' :: leAll rest' := rfl
          rw [hall'] at hn1 hn3 hn4 hrest hsym
          obtain ⟨hn5, hn6⟩ := List.nodup_cons.1 hn4
          obtain ⟨hn7, hn8⟩ := List.nodup_cons.1 hn6
          refine ⟨insert su' D, add st D su' (.ident su) hW rfl hsu (hrest su' (by simp)) (hsym su' (by simp)),
            Set.subset_insert _ _, frm D su' (hsym su' (by simp)), rfl, ?_⟩
          intro t r hr
          cases hr
          refine ⟨Set.mem_insert _ _, ?_, ?_⟩
          · rintro (h | h)
            · exact hn5 (by simp [show nsr' = su' from h])
            · exact hrest nsr' (by simp) h
          · rintro x hx (h | h)
            · exact hn7 (by rw [← h]; exact hx)
            · exact hrest x (by simp [hx]) h
      obtain ⟨D1, w1, s1, f1, hnx, hd1⟩ := key
      have w2 : W A _ (insert (Variable.new st1.next) D1) :=
        w1.step (n := st1.next + 1) (s := .definition (Variable.new st1.next)
          (.mul (.sub (.value 1) (.ident su)) (.sub (.value 1) a)))
          (.definition ⟨⟨trivial, s1 hsu⟩, ⟨trivial, ha.mono s1⟩⟩ (w1.lim _ le_rfl)) (Set.subset_insert _ _)
          (lim_insert w1.lim)
      have sub : D ⊆ (insert (Variable.new st1.next) D1 : Set Variable) := s1.trans (Set.subset_insert _ _)
      have fresh : ∀ x ∈ leAll rest, x ≠ Variable.new st1.next := by
        intro x hx h
        obtain ⟨k, _, h2, h3⟩ := hsym x (by simp [hx])
        have := new_inj (h3.symm.trans h); omega
      refine Exists.elim (ih _ _ _ _ h7 w2 (by simp only; omega)
        (fun t ht => (hin t (by simp [ht])).mono sub) hn4 ?_ ?_) ?_
      rotate_left 2
      · rintro D2 ⟨w3, s2, f2, n2, p2⟩
        refine ⟨D2, w3, sub.trans s2, f1.trans le_rfl (Frame.trans (m := n) ?_ le_rfl f2), ?_, ?_⟩
        · rintro x (rfl | h)
          · exact Or.inr ⟨_, by omega, rfl⟩
          · exact Or.inl h
        · have : st1.next + 1 ≤ st'.next := n2
          omega
        · refine .cons ⟨⟨⟨trivial, s2 (sub hsu)⟩, ⟨trivial, ha.mono (sub.trans s2)⟩⟩, s2 (Set.mem_insert _ _)⟩ p2
      · intro t r hr
        obtain ⟨g1, g2, g3⟩ := hd1 t r hr
        subst hr
        refine ⟨Or.inr g1, ?_, ?_⟩
        · rintro (h | h)
          · exact fresh t.2.2.1 (by simp [leAll]) h
          · exact g2 h
        · rintro x hx (h | h)
          · exact fresh x (by simp only [leAll, List.flatMap_cons, List.mem_append] at hx ⊢; exact Or.inr hx) h
          · exact g3 x hx h
      · intro x hx
        obtain ⟨k, g1, g2, g3⟩ := hsym x (by simp [hx])
        exact ⟨k, g1, by simp only; omega, g3⟩

namespace Scp
variable {α β : Type} {P : α → Set Variable → Prop}

theorem constantLeCheck {a : List (FlatExpr (ZMod p))} (b : List Bool) (ha : Ins E a) :
    Scp A E (Flt.constantLeCheck a b : FlatM p Z _) (fun r E' => Ins E' r) := by
  unfold Flt.constantLeCheck
  refine bind (assert _) fun _ E1 h1 _ => ite ?_ ?_
  · refine bind (defineAll (ha.mono h1)) fun vs E2 h2 hv => bind (emitAll _ ?_) fun _ _ _ _ => pure fun _ _ => .nil
    intro s hs D hD
    obtain ⟨v, hv', rfl⟩ := List.mem_map.1 hs
    exact .condition (hD (hv v hv')) ⟨hD (hv v hv'), hD (hv v hv')⟩ (by simp)
  · intro st res st' D hm hW hE
    obtain ⟨ps, st1, h2, h3⟩ := FlatM.bind_some hm
    obtain ⟨_, st2, h4, h5⟩ := FlatM.bind_some h3
    obtain ⟨rfl, hps⟩ := leSyms_run h2
    cases ps with
    | nil => cases h4
    | cons t ps =>
      obtain ⟨x, su⟩ := t
      cases h4
      have hsub := leAll_zip a b ((x, su) :: ps)
      rw [hps] at hsub
      have hmem : ∀ y ∈ ((x, su) :: ps).flatMap (fun t => [t.1, t.2]), ∃ k, st.next ≤ k ∧ k < st.next + 2 * b.length ∧
          y = Variable.new k := by
        intro y hy
        rw [hps] at hy
        exact mem_syms.1 hy
      have hnd : (((x, su) :: ps).flatMap (fun t => [t.1, t.2])).Nodup := by rw [hps]; exact syms_nodup _ _
      have hsuD : su ∉ D := by
        obtain ⟨k, g1, _, g3⟩ := hmem su (by simp)
        rw [g3]; exact hW.lim k g1
      have w1 : W A _ (insert su D) := W.step (A := A) (D := D) (s := .definition su (.value 1))
        (n := st.next + 2 * b.length) hW (.definition trivial hsuD) (Set.subset_insert _ _) (by
          rintro k hk (h | h)
          · obtain ⟨j, _, g2, g3⟩ := hmem su (by simp)
            have := new_inj (h.trans g3); omega
          · exact hW.lim k (by omega) h)
      refine Exists.elim (leLoop_scope (A := A) st.next _ _ _ _ _ h5 w1 (by simp) ?_
        (hsub.nodup (syms_nodup _ _)) ?_ ?_) ?_
      rotate_left 3
      · rintro D2 ⟨w2, s2, f2, n2, p2⟩
        refine ⟨D2, w2, (Set.subset_insert _ _).trans s2, ?_, ?_, p2⟩
        · refine Frame.trans (m := st.next) ?_ le_rfl f2
          rintro y (rfl | h)
          · obtain ⟨k, g1, _, g3⟩ := hmem y (by simp)
            exact Or.inr ⟨k, g1, g3⟩
          · exact Or.inl h
        · have : st.next + 2 * b.length ≤ st'.next := n2
          omega
      · intro t ht
        obtain ⟨u, v⟩ := t
        have := (List.of_mem_zip ht).1
        exact (ha u this).mono (h1.trans (hE.trans (Set.subset_insert _ _)))
      · intro t rest hr
        cases a with
        | nil => simp at hr
        | cons a as =>
          cases b with
          | nil => simp at hr
          | cons b bs =>
            simp only [List.zip_cons_cons, List.cons.injEq] at hr
            obtain ⟨rfl, rfl⟩ := hr
            have hsub' := leAll_zip as bs ps
            simp only [List.flatMap_cons, List.cons_append, List.nil_append] at hnd hmem
            obtain ⟨d1, d2⟩ := List.nodup_cons.1 hnd
            obtain ⟨d3, d4⟩ := List.nodup_cons.1 d2
            refine ⟨Set.mem_insert _ _, ?_, ?_⟩
            · rintro (h | h)
              · exact d1 (by simp [show x = su from h])
              · obtain ⟨k, g1, _, g3⟩ := hmem x (by simp)
                simp only at h
                rw [g3] at h; exact hW.lim k g1 h
            · rintro y hy (h | h)
              · exact d3 (by rw [← h]; exact hsub'.subset hy)
              · obtain ⟨k, g1, _, g3⟩ := hmem y (by
                  have := hsub'.subset hy
                  simp only [List.mem_cons]; exact Or.inr (Or.inr this))
                rw [g3] at h; exact hW.lim k g1 h
      · intro y hy
        obtain ⟨k, g1, g2, g3⟩ := mem_syms.1 (hsub.subset hy)
        exact ⟨k, g1, g2, g3⟩

theorem eqCheck {l r : FlatExpr (ZMod p)} (hl : l.In E) (hr : r.In E) :
    Scp A E (Flt.eqCheck l r : FlatM p Z _) (fun f E' => f.In E') := by
  unfold Flt.eqCheck
  refine bind (define hl) fun a E1 h1 ha => bind (define (hr.mono h1)) fun b E2 h2 hb => ?_
  refine symDir2 (.cons ⟨h2 ha, hb⟩ .nil) fun y m E3 h3 hy hm => ?_
  have ha3 := h3 (h2 ha)
  have hb3 := h3 hb
  refine bind (cond hy ⟨⟨ha3, hb3⟩, hm⟩ (by simp)) fun _ E4 h4 _ => bind (cond trivial ⟨⟨trivial, h4 hy⟩, ⟨h4 ha3, h4 hb3⟩⟩
    (by simp)) fun _ E5 h5 _ => pure fun E6 h6 => ⟨trivial, h6 (h5 (h4 hy))⟩

theorem enforceLeBits {a : List (FlatExpr (ZMod p))} (b : List Bool) (err : RuntimeError) (ha : Ins E a) :
    Scp A E (Flt.enforceLeBits a b err : FlatM p Z _) (fun _ _ => True) := by
  unfold Flt.enforceLeBits
  exact bind (constantLeCheck b ha) fun r E1 h1 hr => cond trivial ⟨In.sumFold hr, trivial⟩ (by simp)

theorem cachedBits {c : CacheEntry p} (from_ tgt : ℕ) (err : RuntimeError) (hc : Ins E c.bits) :
    Scp A E (Flt.cachedBits c from_ tgt err : FlatM p Z _) (fun bs E' => Ins E' bs) := by
  unfold Flt.cachedBits
  refine bind (cond trivial (In.sumFold (hc.sub (List.take_subset _ _))) (by simp)) fun _ E1 h1 _ =>
    bind (raise _) fun _ E2 h2 _ => pure fun E3 h3 => ?_
  exact (Ins.zeros _).append ((hc.sub (List.drop_subset _ _)).mono (h1.trans (h2.trans h3)))

theorem freshBits {f : FlatExpr (ZMod p)} (from_ tgt : ℕ) {err : RuntimeError} (herr : err ≠ .shaXor) (hf : f.In E) :
    Scp A E (Flt.freshBits f from_ tgt err : FlatM p Z _) (fun bs E' => Ins E' bs) := by
  unfold Flt.freshBits
  refine symsDir (.cons hf .nil) fun vs E1 h1 _ hv => ?_
  have hb : Ins E1 (vs.map (FlatExpr.ident (F := ZMod p))) := .idents hv
  have hk := hb.sub (List.drop_subset (from_ - tgt) _)
  refine bind (emitAll _ ?_) fun _ E2 h2 _ => bind (cond (hf.mono (h1.trans h2)) (In.flatFromBits (hb.mono h2))
    (fun _ _ => herr)) fun _ E3 h3 _ => bind (setCache _ _ (hk.mono (h2.trans h3))) fun _ E4 h4 _ =>
    bind (setCache _ _ (hk.mono (h2.trans (h3.trans h4)))) fun _ E5 h5 _ => pure fun E6 h6 =>
    hk.mono (h2.trans (h3.trans (h4.trans (h5.trans h6))))
  intro s hs D hD
  obtain ⟨e, he, rfl⟩ := List.mem_map.1 hs
  have := (hb e he).mono hD
  exact .condition this ⟨this, this⟩ (by simp)

theorem getBits {u : FlatU p} (from_ tgt : ℕ) {err : RuntimeError} (herr : err ≠ .shaXor) (hu : InU E u) :
    Scp A E (Flt.getBits u from_ tgt err : FlatM p Z _) (fun bs E' => Ins E' bs) := by
  unfold Flt.getBits
  refine bind (assert _) fun _ E1 h1 _ => bind (assert _) fun _ E2 h2 _ => ?_
  have hu := hu.mono (h1.trans h2)
  split
  · have : Ins E2 ((Flt.constBits tgt ‹_›).map (FlatExpr.value (F := ZMod p))) := by
      intro f hf
      obtain ⟨_, _, rfl⟩ := List.mem_map.1 hf
      trivial
    exact bind (setCache _ _ this) fun _ E3 h3 _ => pure fun E4 h4 => this.mono (h3.trans h4)
  · split
    · rename_i bs hbs
      exact pure fun E3 h3 => (hu.2 bs hbs).mono h3
    · refine bind (unwrap _) fun f E3 h3 hf => bind (getCache _) fun c E4 h4 hc => ?_
      split
      · exact cachedBits _ _ _ (hc _ rfl)
      · exact freshBits _ _ herr ((hu.1 f hf).mono (h3.trans h4))

theorem getField {u : FlatU p} (hu : InU E u) : Scp A E (Flt.getField u : FlatM p Z _) (fun f E' => f.In E') := by
  unfold Flt.getField
  split
  · rename_i f hf
    exact pure fun E1 h1 => (hu.1 f hf).mono h1
  · split
    · rename_i bs hbs
      exact pure fun E1 h1 => In.flatFromBits ((hu.2 bs hbs).mono h1)
    · exact panic

theorem enforceConstantLe {e : FlatExpr (ZMod p)} (c : ZMod p) {err : RuntimeError} (herr : err ≠ .shaXor) (he : e.In E) :
    Scp A E (Flt.enforceConstantLe e c err : FlatM p Z _) (fun _ _ => True) := by
  unfold Flt.enforceConstantLe
  exact bind (getBits _ _ herr (.withField he)) fun bs E1 h1 hb => enforceLeBits _ _ hb

theorem enforceConstantLt {e : FlatExpr (ZMod p)} (c : ZMod p) {err : RuntimeError} (herr : err ≠ .shaXor) (he : e.In E) :
    Scp A E (Flt.enforceConstantLt e c err : FlatM p Z _) (fun _ _ => True) := by
  unfold Flt.enforceConstantLt
  exact ite (cond trivial trivial (by simp)) (enforceConstantLe _ herr he)

theorem constantFieldLe {e : FlatExpr (ZMod p)} (c : ZMod p) (he : e.In E) :
    Scp A E (Flt.constantFieldLe e c : FlatM p Z _) (fun f E' => f.In E') := by
  unfold Flt.constantFieldLe
  exact bind (getBits _ _ (by simp) (.withField he)) fun bs E1 h1 hb => bind (enforceLeBits _ _ hb) fun _ E2 h2 _ =>
    bind (constantLeCheck _ (hb.mono h2)) fun r E3 h3 hr => eqCheck trivial (In.sumFold hr)

theorem constantLt {e : FlatExpr (ZMod p)} (c : ZMod p) (he : e.In E) :
    Scp A E (Flt.constantLt e c : FlatM p Z _) (fun f E' => f.In E') := by
  unfold Flt.constantLt
  exact ite (pure fun _ _ => trivial) (constantFieldLe _ he)

theorem ltCheck {l r : FlatExpr (ZMod p)} (w : ℕ) (hl : l.In E) (hr : r.In E) :
    Scp A E (Flt.ltCheck l r w : FlatM p Z _) (fun f E' => f.In E') := by
  unfold Flt.ltCheck
  split
  · exact constantLt _ hl
  · exact constantLt _ ⟨trivial, hr⟩
  · unfold Flt.ltDynamic
    refine bind (define hl) fun a E1 h1 ha => bind (define (hr.mono h1)) fun b E2 h2 hb =>
      bind (getBits _ _ (by simp) (.withField ⟨trivial, h2 ha, hb⟩)) fun bs E3 h3 hbs => ?_
    split
    · exact pure fun E4 h4 => ⟨trivial, (hbs _ (by simp)).mono h4⟩
    · exact panic

theorem leCheck {l r : FlatExpr (ZMod p)} (w : ℕ) (hl : l.In E) (hr : r.In E) :
    Scp A E (Flt.leCheck l r w : FlatM p Z _) (fun f E' => f.In E') := by
  unfold Flt.leCheck
  exact bind (eqCheck hl hr) fun a E1 h1 ha => bind (ltCheck _ (hl.mono h1) (hr.mono h1)) fun b E2 h2 hb =>
    pure fun E3 h3 => ⟨ha.mono (h2.trans h3), hb.mono h3⟩

theorem enforceSafe {l r : FlatExpr (ZMod p)} (hl : l.In E) (hr : r.In E) :
    Scp A E (Flt.enforceSafe l r : FlatM p Z _) (fun _ _ => True) := by
  unfold Flt.enforceSafe
  exact bind (enforceConstantLt _ (by simp) hl) fun _ E1 h1 _ => enforceConstantLt _ (by simp) (hr.mono h1)

theorem fieldLtCheck {l r : FlatExpr (ZMod p)} (hl : l.In E) (hr : r.In E) :
    Scp A E (Flt.fieldLtCheck l r : FlatM p Z _) (fun f E' => f.In E') := by
  unfold Flt.fieldLtCheck
  split
  · exact constantLt _ hl
  · exact constantLt _ ⟨trivial, hr⟩
  · exact bind (enforceSafe hl hr) fun _ E1 h1 _ => ltCheck _ (hl.mono h1) (hr.mono h1)

/-- An action that flattens an expression. -/
abbrev OfF (A E : Set Variable) (m : FlatM p Z (FlatExpr (ZMod p))) : Prop :=
  Scp A E m (fun f E' => f.In E')

/-- An action that flattens an integer expression. -/
abbrev OfU (A E : Set Variable) (m : FlatM p Z (FlatU p)) : Prop := Scp A E m (fun u E' => InU E' u)

theorem conditional {c t e : FlatM p Z (FlatExpr (ZMod p))} (hc : OfF A E c) (ht : OfF A E t) (he : OfF A E e) :
    OfU A E (Flt.conditional c t e) := by
  unfold Flt.conditional
  refine bind hc fun f E1 h1 hf => bind (newDef hf) fun c E2 h2 hc => bind (ht.mono (h1.trans h2)) fun t E3 h3 ht =>
    bind (he.mono (h1.trans (h2.trans h3))) fun e E4 h4 he => bind (newDef (ht.mono h4)) fun t' E5 h5 ht' =>
    bind (newDef (he.mono h5)) fun e' E6 h6 he' => bind (newDef ⟨h6 (h5 (h4 (h3 hc))), h6 ht'⟩) fun a E7 h7 ha =>
    bind (newDef ⟨⟨trivial, h7 (h6 (h5 (h4 (h3 hc))))⟩, h7 he'⟩) fun b E8 h8 hb =>
    bind (newDef ⟨h8 ha, hb⟩) fun r E9 h9 hr => pure fun E10 h10 => .withField (h10 hr)

theorem selFold {l : List (FlatExpr (ZMod p) × FlatExpr (ZMod p))} {rc res : FlatExpr (ZMod p)}
    (hl : ∀ t ∈ l, t.1.In E ∧ t.2.In E) (h1 : rc.In E) (h2 : res.In E) :
    Scp A E (Flt.selFold l rc res : FlatM p Z _) (fun t E' => t.1.In E' ∧ t.2.In E') := by
  induction l generalizing E rc res with
  | nil => exact pure fun E1 g1 => ⟨h1.mono g1, h2.mono g1⟩
  | cons t l ih =>
    obtain ⟨c, e⟩ := t
    have hce := hl (c, e) (by simp)
    exact bind (newDef hce) fun v E1 g1 hv => ih (fun t ht => ⟨(hl t (by simp [ht])).1.mono g1,
      (hl t (by simp [ht])).2.mono g1⟩) ⟨h1.mono g1, hce.1.mono g1⟩ ⟨h2.mono g1, hv⟩

theorem selFinish {l : List (FlatExpr (ZMod p) × FlatExpr (ZMod p))} (hl : ∀ t ∈ l, t.1.In E ∧ t.2.In E) :
    OfU A E (Flt.selFinish l : FlatM p Z _) := by
  unfold Flt.selFinish
  refine bind (selFold hl trivial trivial) fun t E1 h1 ht => ?_
  exact bind (cond ht.1 trivial (by simp)) fun _ E2 h2 _ => pure fun E3 h3 => .withField (ht.2.mono (h2.trans h3))

theorem uTail (w : ℕ) (max : ZMod p) (red : Bool) {u : FlatU p} (hu : InU E u) :
    OfU A E (Flt.uTail w max red u : FlatM p Z _) := by
  unfold Flt.uTail
  refine ite (bind (getBits _ _ (by simp) hu) fun bs E1 h1 hb => ite (pure fun E2 h2 => ⟨?_, ?_⟩)
    (bind (getField (hu.mono h1)) fun f E2 h2 hf => pure fun E3 h3 => ⟨?_, ?_⟩)) (pure fun E1 h1 => hu.mono h1)
  · intro f hf; cases hf; exact In.foldBits (hb.mono h2)
  · intro f hf; cases hf; exact hb.mono h2
  · intro f hf; cases hf; exact hf.mono h3
  · intro f hf; cases hf; exact hb.mono (h2.trans h3)

theorem readInfo (m : Option (UMeta (ZMod p))) : Scp A E (Flt.readInfo m : FlatM p Z _) (fun _ _ => True) := by
  unfold Flt.readInfo
  exact bind (unwrap _) fun _ _ _ _ => bind (unwrap _) fun _ _ _ _ => pure fun _ _ => trivial

theorem assertReduced (m : Option (UMeta (ZMod p))) : Scp A E (Flt.assertReduced m : FlatM p Z _) (fun _ _ => True) := by
  unfold Flt.assertReduced
  exact bind (readInfo _) fun _ _ _ _ => assert _

theorem uintEqCheck {a b} {x y : FlatM p Z (FlatU p)} (hx : OfU A E x) (hy : OfU A E y) :
    OfF A E (Flt.uintEqCheck a x b y) := by
  unfold Flt.uintEqCheck
  exact bind (assertReduced _) fun _ E1 h1 _ => bind (assertReduced _) fun _ E2 h2 _ =>
    bind (hx.mono (h1.trans h2)) fun u E3 h3 hu => bind (getField hu) fun f E4 h4 hf =>
    bind (hy.mono (h1.trans (h2.trans (h3.trans h4)))) fun v E5 h5 hv => bind (getField hv) fun g E6 h6 hg =>
    eqCheck (hf.mono (h5.trans h6)) hg

theorem uintLtCheck {w a b} {x y : FlatM p Z (FlatU p)} (hx : OfU A E x) (hy : OfU A E y) :
    OfF A E (Flt.uintLtCheck w a x b y) := by
  unfold Flt.uintLtCheck
  exact bind (assertReduced _) fun _ E1 h1 _ => bind (assertReduced _) fun _ E2 h2 _ =>
    bind (hx.mono (h1.trans h2)) fun u E3 h3 hu => bind (getField hu) fun f E4 h4 hf =>
    bind (hy.mono (h1.trans (h2.trans (h3.trans h4)))) fun v E5 h5 hv => bind (getField hv) fun g E6 h6 hg =>
    ltCheck _ (hf.mono (h5.trans h6)) hg

theorem selCond {m} {x : FlatM p Z (FlatU p)} (hx : OfU A E x) (j : ℕ) : OfF A E (Flt.selCond m x j) := by
  unfold Flt.selCond
  exact uintEqCheck (uTail _ _ _ (.withField trivial)) hx

theorem powSquares (l : List Bool) {e : FlatExpr (ZMod p)} (he : e.In E) :
    Scp A E (Flt.powSquares l e : FlatM p Z _) (fun r E' => Ins E' r) := by
  induction l generalizing E e with
  | nil => exact pure fun _ _ => .nil
  | cons t l ih =>
    exact bind (newDef ⟨he, he⟩) fun v E1 h1 hv => bind (ih (e := .ident v) hv) fun r E2 h2 hr => pure fun E3 h3 =>
      .cons (h3 (h2 hv)) (hr.mono h3)

theorem powFold {l : List (Bool × FlatExpr (ZMod p))} {acc : FlatExpr (ZMod p)} (hl : ∀ t ∈ l, t.2.In E)
    (ha : acc.In E) : OfF A E (Flt.powFold l acc : FlatM p Z _) := by
  induction l generalizing E acc with
  | nil => exact pure fun _ h => ha.mono h
  | cons t l ih =>
    obtain ⟨b, e⟩ := t
    cases b
    · exact ih (fun t ht => hl t (by simp [ht])) ha
    · exact bind (newDef ⟨ha, hl (true, e) (by simp)⟩) fun v E1 h1 hv => ih (fun t ht => (hl t (by simp [ht])).mono h1) hv

theorem powFlat {e : FlatExpr (ZMod p)} (n : ℕ) (he : e.In E) : OfF A E (Flt.powFlat e n : FlatM p Z _) := by
  unfold Flt.powFlat
  refine bind (assert _) fun _ E1 h1 _ => ?_
  dsimp only
  split
  · exact pure fun _ _ => trivial
  · refine bind (powSquares _ (he.mono h1)) fun r E2 h2 hr => powFold ?_ trivial
    rintro ⟨b, f⟩ ht
    have := (List.of_mem_zip ht).2
    rcases List.mem_cons.1 this with rfl | h
    · exact he.mono (h1.trans h2)
    · exact hr f h

theorem divFlat {l r : FlatExpr (ZMod p)} (hl : l.In E) (hr : r.In E) : OfF A E (Flt.divFlat l r : FlatM p Z _) := by
  unfold Flt.divFlat
  refine bind (newDef hl) fun a E1 h1 ha => bind (newDef (hr.mono h1)) fun b E2 h2 hb =>
    symDir1 (.cons (h2 ha) (.cons hb .nil)) fun v E3 h3 hv => ?_
  exact bind (cond (h3 (h2 ha)) ⟨h3 hb, hv⟩ (by simp)) fun _ E4 h4 _ => pure fun E5 h5 => h5 (h4 hv)

theorem euclid (w : ℕ) {l r : FlatExpr (ZMod p)} (hl : l.In E) (hr : r.In E) :
    Scp A E (Flt.euclid w l r : FlatM p Z _) (fun t E' => t.1 ∈ E' ∧ t.2 ∈ E') := by
  unfold Flt.euclid
  refine bind (linearise hl) fun n E1 h1 hn => bind (linearise (hr.mono h1)) fun d E2 h2 hd =>
    symDir2 (.cons (hn.mono h2) (.cons hd .nil)) fun q r E3 h3 hq hr => ?_
  have hn3 := hn.mono (h2.trans h3)
  have hd3 := hd.mono h3
  refine bind (getBits (u := Flt.withField (.ident q)) _ _ (by simp) (.withField hq)) fun _ E4 h4 _ =>
    bind (getBits (u := Flt.withField (.ident r)) _ _ (by simp) (.withField (h4 hr))) fun _ E5 h5 _ =>
    bind (getBits _ _ (by simp) (.withField ⟨⟨h5 (h4 hr), hd3.mono (h4.trans h5)⟩, trivial⟩)) fun _ E6 h6 _ => ?_
  have s := h4.trans (h5.trans h6)
  exact bind (cond ⟨hn3.mono s, s hr⟩ ⟨s hq, hd3.mono s⟩ (by simp)) fun _ E7 h7 _ => pure fun E8 h8 =>
    ⟨h8 (h7 (s hq)), h8 (h7 (s hr))⟩

theorem xorBit {a b : FlatExpr (ZMod p)} (ha : a.In E) (hb : b.In E) : OfF A E (Flt.xorBit a b : FlatM p Z _) := by
  have : ∀ n {e : FlatExpr (ZMod p)}, e.In E → OfF A E (Flt.xorBit.xorConst n e : FlatM p Z _) := by
    intro n e he
    unfold Flt.xorBit.xorConst
    exact ite (bind (define he) fun v E1 h1 hv => pure fun _ h => h hv)
      (ite (bind (define (e := .sub (.value 1) e) ⟨trivial, he⟩) fun v E1 h1 hv => pure fun _ h => h hv) panic)
  unfold Flt.xorBit
  split
  · exact this _ hb
  · exact this _ ha
  · refine symDir1 (.cons ha (.cons hb .nil)) fun v E1 h1 hv => ?_
    have ha := ha.mono h1
    have hb := hb.mono h1
    exact bind (cond ⟨ha, hb, hv⟩ ⟨⟨ha, ha⟩, hb⟩ (by simp)) fun _ E2 h2 _ => pure fun E3 h3 => h3 (h2 hv)

theorem andBit {a b : FlatExpr (ZMod p)} (ha : a.In E) (hb : b.In E) : OfF A E (Flt.andBit a b : FlatM p Z _) := by
  have : ∀ n {e : FlatExpr (ZMod p)}, e.In E → OfF A E (Flt.andBit.andConst n e : FlatM p Z _) := by
    intro n e he
    unfold Flt.andBit.andConst
    exact ite (pure fun _ _ => trivial) (ite (pure fun _ h => he.mono h) panic)
  unfold Flt.andBit
  split
  · exact this _ hb
  · exact this _ ha
  · exact bind (define ⟨ha, hb⟩) fun v E1 h1 hv => pure fun _ h => h hv

theorem orTail {a b : FlatExpr (ZMod p)} (ha : a.In E) (hb : b.In E) : OfF A E (do
    let name ← Flt.useSym
    Flt.emit (.directive [name] .or [a, b])
    Flt.emit (.condition (.add a (.sub b (.ident name))) (.mul a b) .or)
    Pure.pure (FlatExpr.ident name) : FlatM p Z _) := by
  refine symDir1 (.cons ha (.cons hb .nil)) fun v E1 h1 hv => ?_
  have ha := ha.mono h1
  have hb := hb.mono h1
  exact bind (cond ⟨ha, hb, hv⟩ ⟨ha, hb⟩ (by simp)) fun _ E2 h2 _ => pure fun E3 h3 => h3 (h2 hv)

theorem orBit {a b : FlatExpr (ZMod p)} (ha : a.In E) (hb : b.In E) : OfF A E (Flt.orBit a b : FlatM p Z _) := by
  have : ∀ n {e : FlatExpr (ZMod p)}, e.In E → OfF A E (Flt.orBit.orConst n e : FlatM p Z _) := by
    intro n e he
    unfold Flt.orBit.orConst
    exact ite (bind (define he) fun v E1 h1 hv => pure fun _ h => h hv) (ite (pure fun _ _ => trivial) panic)
  unfold Flt.orBit
  split
  · exact this _ hb
  · exact this _ ha
  · exact orTail ha hb

theorem notBit {a : FlatExpr (ZMod p)} (ha : a.In E) : OfF A E (Flt.notBit a : FlatM p Z _) := by
  unfold Flt.notBit
  exact bind (define (e := .sub (.value 1) a) ⟨trivial, ha⟩) fun v E1 h1 hv => pure fun _ h => h hv

theorem chBit {a b c : FlatExpr (ZMod p)} (ha : a.In E) (hb : b.In E) (hc : c.In E) :
    OfF A E (Flt.chBit a b c : FlatM p Z _) := by
  unfold Flt.chBit
  refine symDir1 (.cons ha (.cons hb (.cons hc .nil))) fun v E1 h1 hv => ?_
  exact bind (cond ⟨hv, hc.mono h1⟩ ⟨ha.mono h1, hb.mono h1, hc.mono h1⟩ (by simp)) fun _ E2 h2 _ =>
    pure fun E3 h3 => h3 (h2 hv)

theorem majBit {a b c : FlatExpr (ZMod p)} (ha : a.In E) (hb : b.In E) (hc : c.In E) :
    OfF A E (Flt.majBit a b c : FlatM p Z _) := by
  unfold Flt.majBit
  refine symMaj (.cons ha (.cons hb (.cons hc .nil))) ⟨hb, hc⟩ fun v w E1 h1 hv hw => ?_
  exact bind (cond ⟨hw, hv⟩ ⟨⟨⟨hw, hw⟩, hb.mono h1, hc.mono h1⟩, ha.mono h1⟩ (by simp)) fun _ E2 h2 _ =>
    pure fun E3 h3 => h3 (h2 hv)

theorem boolOr {a b : FlatExpr (ZMod p)} (ha : a.In E) (hb : b.In E) : OfF A E (Flt.boolOr a b : FlatM p Z _) := by
  unfold Flt.boolOr
  exact bind (assert _) fun _ E1 h1 _ => orTail (ha.mono h1) (hb.mono h1)

theorem zipBits {f : FlatExpr (ZMod p) → FlatExpr (ZMod p) → FlatM p Z (FlatExpr (ZMod p))}
    (hf : ∀ {E} {a b : FlatExpr (ZMod p)}, a.In E → b.In E → OfF A E (f a b)) {as bs : List (FlatExpr (ZMod p))}
    (ha : Ins E as) (hb : Ins E bs) : Scp A E (Flt.zipBits f as bs) (fun r E' => Ins E' r) := by
  induction as generalizing E bs with
  | nil => exact pure fun _ _ => .nil
  | cons a as ih =>
    cases bs with
    | nil => exact pure fun _ _ => .nil
    | cons b bs =>
      exact bind (hf (ha a (by simp)) (hb b (by simp))) fun r E1 h1 hr => bind (ih ((ha.sub (by simp)).mono h1)
        ((hb.sub (by simp)).mono h1)) fun rs E2 h2 hrs => pure fun E3 h3 => .cons (hr.mono (h2.trans h3)) (hrs.mono h3)

theorem zipBits3 {f : FlatExpr (ZMod p) → FlatExpr (ZMod p) → FlatExpr (ZMod p) → FlatM p Z (FlatExpr (ZMod p))}
    (hf : ∀ {E} {a b c : FlatExpr (ZMod p)}, a.In E → b.In E → c.In E → OfF A E (f a b c))
    {as bs cs : List (FlatExpr (ZMod p))} (ha : Ins E as) (hb : Ins E bs) (hc : Ins E cs) :
    Scp A E (Flt.zipBits3 f as bs cs) (fun r E' => Ins E' r) := by
  induction as generalizing E bs cs with
  | nil => exact pure fun _ _ => .nil
  | cons a as ih =>
    cases bs with
    | nil => exact pure fun _ _ => .nil
    | cons b bs =>
      cases cs with
      | nil => exact pure fun _ _ => .nil
      | cons c cs =>
        exact bind (hf (ha a (by simp)) (hb b (by simp)) (hc c (by simp))) fun r E1 h1 hr =>
          bind (ih ((ha.sub (by simp)).mono h1) ((hb.sub (by simp)).mono h1) ((hc.sub (by simp)).mono h1))
          fun rs E2 h2 hrs => pure fun E3 h3 => .cons (hr.mono (h2.trans h3)) (hrs.mono h3)

theorem mapBits {f : FlatExpr (ZMod p) → FlatM p Z (FlatExpr (ZMod p))}
    (hf : ∀ {E} {a : FlatExpr (ZMod p)}, a.In E → OfF A E (f a)) {as : List (FlatExpr (ZMod p))} (ha : Ins E as) :
    Scp A E (Flt.mapBits f as) (fun r E' => Ins E' r) := by
  induction as generalizing E with
  | nil => exact pure fun _ _ => .nil
  | cons a as ih =>
    exact bind (hf (ha a (by simp))) fun r E1 h1 hr => bind (ih ((ha.sub (by simp)).mono h1)) fun rs E2 h2 hrs =>
      pure fun E3 h3 => .cons (hr.mono (h2.trans h3)) (hrs.mono h3)

theorem defaultXor {l r : FlatM p Z (FlatU p)} (hl : OfU A E l) (hr : OfU A E r) : OfU A E (Flt.defaultXor l r) := by
  unfold Flt.defaultXor
  exact bind hl fun a E1 h1 ha => bind (hr.mono h1) fun b E2 h2 hb => bind (unwrap _) fun as E3 h3 has =>
    bind (unwrap _) fun bs E4 h4 hbs => bind (zipBits xorBit ((ha.2 as has).mono (h2.trans (h3.trans h4)))
    ((hb.2 bs hbs).mono (h3.trans h4))) fun r E5 h5 hr => pure fun E6 h6 => .withBits (hr.mono h6)

theorem threeBits {f : FlatExpr (ZMod p) → FlatExpr (ZMod p) → FlatExpr (ZMod p) → FlatM p Z (FlatExpr (ZMod p))}
    (hf : ∀ {E} {a b c : FlatExpr (ZMod p)}, a.In E → b.In E → c.In E → OfF A E (f a b c)) {a b c : FlatM p Z (FlatU p)}
    (ha : OfU A E a) (hb : OfU A E b) (hc : OfU A E c) : OfU A E (Flt.threeBits f a b c) := by
  unfold Flt.threeBits
  exact bind ha fun a E1 h1 ha => bind (hb.mono h1) fun b E2 h2 hb => bind (hc.mono (h1.trans h2)) fun c E3 h3 hc =>
    bind (unwrap _) fun as E4 h4 has => bind (unwrap _) fun bs E5 h5 hbs => bind (unwrap _) fun cs E6 h6 hcs =>
    bind (zipBits3 hf ((ha.2 as has).mono (h2.trans (h3.trans (h4.trans (h5.trans h6)))))
      ((hb.2 bs hbs).mono (h3.trans (h4.trans (h5.trans h6)))) ((hc.2 cs hcs).mono (h4.trans (h5.trans h6))))
    fun r E7 h7 hr => pure fun E8 h8 => .withBits (hr.mono h8)

theorem twoFields {l r : FlatM p Z (FlatU p)} (hl : OfU A E l) (hr : OfU A E r) :
    Scp A E (Flt.twoFields l r) (fun t E' => t.1.In E' ∧ t.2.In E') := by
  unfold Flt.twoFields
  exact bind hl fun u E1 h1 hu => bind (getField hu) fun a E2 h2 ha => bind (hr.mono (h1.trans h2)) fun v E3 h3 hv =>
    bind (getField hv) fun b E4 h4 hb => bind (linearise (ha.mono (h3.trans h4))) fun a E5 h5 ha =>
    bind (linearise (hb.mono h5)) fun b E6 h6 hb => pure fun E7 h7 => ⟨ha.mono (h6.trans h7), hb.mono h7⟩

theorem twoLinear {l r : FlatM p Z (FlatExpr (ZMod p))} (hl : OfF A E l) (hr : OfF A E r) :
    Scp A E (Flt.twoLinear l r) (fun t E' => t.1.In E' ∧ t.2.In E') := by
  unfold Flt.twoLinear
  exact bind hl fun a E1 h1 ha => bind (hr.mono h1) fun b E2 h2 hb => bind (linearise (ha.mono h2)) fun a E5 h5 ha =>
    bind (linearise (hb.mono h5)) fun b E6 h6 hb => pure fun E7 h7 => ⟨ha.mono (h6.trans h7), hb.mono h7⟩

theorem bitwise {w} {f : FlatExpr (ZMod p) → FlatExpr (ZMod p) → FlatM p Z (FlatExpr (ZMod p))}
    (hf : ∀ {E} {a b : FlatExpr (ZMod p)}, a.In E → b.In E → OfF A E (f a b)) {l r : FlatM p Z (FlatU p)}
    (hl : OfU A E l) (hr : OfU A E r) : OfU A E (Flt.bitwise w f l r) := by
  unfold Flt.bitwise
  exact bind hl fun a E1 h1 ha => bind (hr.mono h1) fun b E2 h2 hb => bind (unwrap _) fun as E3 h3 has =>
    bind (unwrap _) fun bs E4 h4 hbs => bind (assert _) fun _ E5 h5 _ => bind (assert _) fun _ E6 h6 _ =>
    bind (zipBits hf ((ha.2 as has).mono (h2.trans (h3.trans (h4.trans (h5.trans h6)))))
    ((hb.2 bs hbs).mono (h3.trans (h4.trans (h5.trans h6))))) fun r E7 h7 hr => pure fun E8 h8 => .withBits (hr.mono h8)

theorem selGen {α : Type} {f : α → FlatM p Z (FlatExpr (ZMod p))} (l : List α) (hf : ∀ a ∈ l, OfF A E (f a))
    {c : ℕ → FlatM p Z (FlatExpr (ZMod p))} (hc : ∀ i, OfF A E (c i)) (i : ℕ) :
    Scp A E (Zok.selGen f l i c) (fun r E' => ∀ t ∈ r, t.1.In E' ∧ t.2.In E') := by
  induction l generalizing i E with
  | nil => exact pure fun _ _ t h => by cases h
  | cons a l ih =>
    refine bind (hc i) fun k E1 h1 hk => bind ((hf a (by simp)).mono h1) fun v E2 h2 hv =>
      bind (ih (fun b hb => (hf b (by simp [hb])).mono (h1.trans h2)) (fun i => (hc i).mono (h1.trans h2)) (i + 1))
      fun r E3 h3 hr => pure fun E4 h4 t ht => ?_
    rcases List.mem_cons.1 ht with rfl | ht
    · exact ⟨hk.mono (h2.trans (h3.trans h4)), hv.mono (h3.trans h4)⟩
    · exact ⟨(hr t ht).1.mono h4, (hr t ht).2.mono h4⟩

theorem symAssertDef {b : Bool} {e : FlatExpr (ZMod p)} {k : Variable → FlatM p Z α} (he : e.In E)
    (hk : ∀ v E', E ⊆ E' → v ∈ E' → Scp A E' (k v) P) :
    Scp A E (do let v ← Flt.useSym; Flt.assert b; Flt.emit (.definition v e); k v) P := by
  cases b
  · intro st a st' D hm
    obtain ⟨_, _, h1, h2⟩ := FlatM.bind_some hm
    obtain ⟨_, _, h3, _⟩ := FlatM.bind_some h2
    cases h3
  · intro st a st' D hm
    exact symDef he hk st a st' D hm

theorem all (n : ℕ) : (∀ (E : Set Variable) (e : FExpr (ZMod p)), sizeOf e < n → OfF A E (Flt.flattenF e : FlatM p Z _)) ∧
    (∀ (E : Set Variable) (e : BExpr (ZMod p)), sizeOf e < n → OfF A E (Flt.flattenB e : FlatM p Z _)) ∧
    (∀ (E : Set Variable) (e : UExpr (ZMod p)), sizeOf e < n → OfU A E (Flt.flattenU e : FlatM p Z _)) := by
  induction n with
  | zero => exact ⟨fun _ _ h => absurd h (by omega), fun _ _ h => absurd h (by omega), fun _ _ h => absurd h (by omega)⟩
  | succ n ih =>
    obtain ⟨ihF, ihB, ihU⟩ := ih
    have hmem : ∀ {α : Type} [SizeOf α] (e : α) (es : List α), e ∈ es → sizeOf e < sizeOf es :=
      fun e es h => List.sizeOf_lt_of_mem h
    refine ⟨?_, ?_, ?_⟩
    · intro E e hn
      cases e <;> rw [Flt.flattenF] <;> simp at hn
      case value => exact pure fun _ _ => trivial
      case ident => exact bind (lookup _) fun v E1 h1 hv => pure fun _ h => h hv
      case select es i =>
        rw [flattenSelF_eq]
        exact bind (selGen es (fun e he => ihF _ e (by have := hmem e es he; omega)) (selCond (ihU _ i (by omega))) 0)
          fun l E1 h1 hl => bind (selFinish hl) fun u E2 h2 hu => getField hu
      case add l r =>
        exact bind (twoLinear (ihF _ l (by omega)) (ihF _ r (by omega))) fun (a, b) E1 h1 ht =>
          pure fun _ h => ⟨ht.1.mono h, ht.2.mono h⟩
      case sub l r =>
        exact bind (twoLinear (ihF _ l (by omega)) (ihF _ r (by omega))) fun (a, b) E1 h1 ht =>
          pure fun _ h => ⟨ht.1.mono h, ht.2.mono h⟩
      case mult l r =>
        exact bind (twoLinear (ihF _ l (by omega)) (ihF _ r (by omega))) fun (a, b) E1 h1 ht =>
          pure fun _ h => ⟨ht.1.mono h, ht.2.mono h⟩
      case div l r =>
        exact bind (ihF _ l (by omega)) fun a E1 h1 ha => bind (ihF _ r (by omega)) fun b E2 h2 hb =>
          divFlat (ha.mono h2) hb
      case pow b e =>
        split
        · exact bind (ihF _ b (by omega)) fun f E1 h1 hf => powFlat _ hf
        · exact panic
      case cond c t e =>
        exact bind (conditional (ihB _ c (by omega)) (ihF _ t (by omega)) (ihF _ e (by omega))) fun u E1 h1 hu =>
          getField hu
      all_goals exact panic
    · intro E e hn
      cases e <;> rw [Flt.flattenB] <;> simp at hn
      case value => exact pure fun _ _ => trivial
      case ident => exact bind (lookup _) fun v E1 h1 hv => pure fun _ h => h hv
      case select es i =>
        rw [flattenSelB_eq]
        exact bind (selGen es (fun e he => ihB _ e (by have := hmem e es he; omega)) (selCond (ihU _ i (by omega))) 0)
          fun l E1 h1 hl => bind (selFinish hl) fun u E2 h2 hu => getField hu
      case fieldLt l r =>
        exact bind (ihF _ l (by omega)) fun a E1 h1 ha => bind (ihF _ r (by omega)) fun b E2 h2 hb =>
          fieldLtCheck (ha.mono h2) hb
      case fieldLe l r =>
        exact bind (ihF _ l (by omega)) fun a E1 h1 ha => bind (ihF _ r (by omega)) fun b E2 h2 hb =>
          bind (fieldLtCheck (ha.mono h2) hb) fun lt E3 h3 hlt => bind (ihF _ l (by omega)) fun a E4 h4 ha =>
          bind (ihF _ r (by omega)) fun b E5 h5 hb => bind (eqCheck (ha.mono h5) hb) fun eq E6 h6 heq => pure fun E7 h7 =>
          ⟨heq.mono h7, hlt.mono (h4.trans (h5.trans (h6.trans h7)))⟩
      case fieldEq l r =>
        exact bind (ihF _ l (by omega)) fun a E1 h1 ha => bind (ihF _ r (by omega)) fun b E2 h2 hb =>
          eqCheck (ha.mono h2) hb
      case uintLt l r => exact uintLtCheck (ihU _ l (by omega)) (ihU _ r (by omega))
      case uintLe l r =>
        exact bind (uintLtCheck (ihU _ l (by omega)) (ihU _ r (by omega))) fun a E1 h1 ha =>
          bind (uintEqCheck (ihU _ l (by omega)) (ihU _ r (by omega))) fun b E2 h2 hb => pure fun E3 h3 =>
          ⟨hb.mono h3, ha.mono (h2.trans h3)⟩
      case uintEq l r => exact uintEqCheck (ihU _ l (by omega)) (ihU _ r (by omega))
      case boolEq l r =>
        exact bind (ihB _ l (by omega)) fun a E1 h1 ha => bind (ihB _ r (by omega)) fun b E2 h2 hb =>
          bind (newDef ⟨⟨ha.mono h2, hb⟩, ⟨ha.mono h2, hb⟩⟩) fun v E3 h3 hv => pure fun _ h => ⟨trivial, h hv⟩
      case or l r =>
        exact bind (ihB _ l (by omega)) fun a E1 h1 ha => bind (ihB _ r (by omega)) fun b E2 h2 hb =>
          boolOr (ha.mono h2) hb
      case and l r =>
        exact bind (ihB _ l (by omega)) fun a E1 h1 ha => bind (ihB _ r (by omega)) fun b E2 h2 hb =>
          symAssertDef ⟨ha.mono h2, hb⟩ fun v E3 h3 hv => pure fun _ h => h hv
      case not e => exact bind (ihB _ e (by omega)) fun a E1 h1 ha => pure fun _ h => ⟨trivial, ha.mono h⟩
      case cond c t e =>
        exact bind (conditional (ihB _ c (by omega)) (ihB _ t (by omega)) (ihB _ e (by omega))) fun u E1 h1 hu =>
          getField hu
    · rintro E ⟨w, m, i⟩ hn
      simp at hn
      rw [Flt.flattenU]
      refine bind (readInfo _) fun _ E0 h0 _ => bind (P := fun u E' => InU E' u) ?_ fun u E1 h1 hu => uTail _ _ _ hu
      cases i
      case xor l r =>
        simp at hn
        refine flattenUI_xor_cases w l r (fun m => OfU A E0 m) (fun o m h => bind (unwrap o) fun _ E1 h1 _ => h.mono h1)
          ?_ ?_ (defaultXor (ihU _ l (by omega)) (ihU _ r (by omega)))
        · rintro wl ml a b wr mr wa ma c rfl rfl
          simp at hn
          exact threeBits chBit (ihU _ a (by omega)) (ihU _ b (by omega)) (ihU _ c (by omega))
        · rintro wl ml w0 m0 a b w1 m1 c wr mr rfl rfl
          simp at hn
          exact threeBits majBit (ihU _ a (by omega)) (ihU _ b (by omega)) (ihU _ c (by omega))
      all_goals (rw [Flt.flattenUI]; simp at hn)
      case value => exact pure fun _ _ => .withField trivial
      case ident =>
        refine bind (lookup _) fun v E1 h1 hv => bind (getCache _) fun c E2 h2 hc => ?_
        split
        · exact pure fun _ h => .withField (h (h2 hv))
        · refine bind (assert _) fun _ E3 h3 _ => pure fun E4 h4 => ⟨fun f hf => ?_, fun bs hbs => ?_⟩
          · cases hf; exact h4 (h3 (h2 hv))
          · cases hbs; exact (hc _ rfl).mono (h3.trans h4)
      case select es i =>
        rw [flattenSelU_eq]
        exact bind (selGen es (fun e he => bind (ihU _ e (by have := hmem e es he; omega)) fun u E1 h1 hu => getField hu)
          (selCond (ihU _ i (by omega))) 0) fun l E1 h1 hl => selFinish hl
      case add l r =>
        exact bind (twoFields (ihU _ l (by omega)) (ihU _ r (by omega))) fun (a, b) E1 h1 ht =>
          pure fun _ h => .withField ⟨ht.1.mono h, ht.2.mono h⟩
      case sub l r =>
        exact bind (unwrap _) fun _ _ _ _ => bind (twoFields (ihU _ l (by omega)) (ihU _ r (by omega)))
          fun (a, b) E1 h1 ht => pure fun _ h => .withField ⟨trivial, ht.1.mono h, ht.2.mono h⟩
      case mult l r =>
        exact bind (twoFields (ihU _ l (by omega)) (ihU _ r (by omega))) fun (a, b) E1 h1 ht => bind (newDef ht)
          fun v E2 h2 hv => pure fun _ h => .withField (h hv)
      case div l r =>
        exact bind (ihU _ l (by omega)) fun u E1 h1 hu => bind (getField hu) fun a E2 h2 ha => bind (ihU _ r (by omega))
          fun v E3 h3 hv => bind (getField hv) fun b E4 h4 hb => bind (euclid _ (ha.mono (h3.trans h4)) hb)
          fun (a, b) E5 h5 ht => pure fun _ h => .withField (h ht.1)
      case rem l r =>
        exact bind (ihU _ l (by omega)) fun u E1 h1 hu => bind (getField hu) fun a E2 h2 ha => bind (ihU _ r (by omega))
          fun v E3 h3 hv => bind (getField hv) fun b E4 h4 hb => bind (euclid _ (ha.mono (h3.trans h4)) hb)
          fun (a, b) E5 h5 ht => pure fun _ h => .withField (h ht.2)
      case and l r => exact bitwise andBit (ihU _ l (by omega)) (ihU _ r (by omega))
      case or l r => exact bitwise orBit (ihU _ l (by omega)) (ihU _ r (by omega))
      case leftShift e b =>
        split
        · exact bind (ihU _ e (by omega)) fun u E1 h1 hu => bind (unwrap _) fun bs E2 h2 hbs => bind (assert _)
            fun _ E3 h3 _ => pure fun E4 h4 => .withBits ((((hu.2 bs hbs).mono (h2.trans (h3.trans h4))).sub
              (List.drop_subset _ _)).append (.zeros _))
        · exact panic
      case rightShift e b =>
        split
        · exact bind (ihU _ e (by omega)) fun u E1 h1 hu => bind (unwrap _) fun bs E2 h2 hbs => bind (assert _)
            fun _ E3 h3 _ => pure fun E4 h4 => .withBits (Ins.append (.zeros _) (((hu.2 bs hbs).mono
              (h2.trans (h3.trans h4))).sub (List.take_subset _ _)))
        · exact panic
      case not e =>
        exact bind (ihU _ e (by omega)) fun u E1 h1 hu => bind (unwrap _) fun bs E2 h2 hbs => bind (assert _)
          fun _ E3 h3 _ => bind (mapBits notBit ((hu.2 bs hbs).mono (h2.trans h3))) fun r E4 h4 hr => pure fun E5 h5 =>
          .withBits (hr.mono h5)
      case cond c t e =>
        exact conditional (ihB _ c (by omega)) (bind (ihU _ t (by omega)) fun u E1 h1 hu => getField hu)
          (bind (ihU _ e (by omega)) fun u E1 h1 hu => getField hu)

theorem flattenF (e : FExpr (ZMod p)) : OfF A E (Flt.flattenF e : FlatM p Z _) := (all (sizeOf e + 1)).1 E e (by omega)
theorem flattenB (e : BExpr (ZMod p)) : OfF A E (Flt.flattenB e : FlatM p Z _) := (all (sizeOf e + 1)).2.1 E e (by omega)
theorem flattenU (e : UExpr (ZMod p)) : OfU A E (Flt.flattenU e : FlatM p Z _) := (all (sizeOf e + 1)).2.2 E e (by omega)

end Scp

end Zok
