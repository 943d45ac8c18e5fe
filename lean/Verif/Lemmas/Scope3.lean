import Verif.Lemmas.Scope2
import Verif.Model.Compile

/-
Scoping of statements, parameters and functions.
-/

set_option linter.unusedSectionVars false
set_option linter.unusedVariables false

namespace Zok
variable {p : ℕ} {Z : Type} [Fact p.Prime] {A D D' E E' : Set Variable}

theorem RuntimeError.ofZir_ne {err : RuntimeError} (h : err.ofZir) : err ≠ .shaXor := by
  rintro rfl; exact h

namespace Scp
variable {α β : Type} {P : α → Set Variable → Prop}

theorem flattenZ (e : ZExpr (ZMod p)) : OfU A E (Flt.flattenZ e : FlatM p Z _) := by
  cases e <;> rw [Flt.flattenZ]
  · exact bind (flattenF _) fun f E1 h1 hf => pure fun E2 h2 => .withField (hf.mono h2)
  · exact bind (flattenB _) fun f E1 h1 hf => pure fun E2 h2 => .withField (hf.mono h2)
  · exact flattenU _

theorem flattenZs (es : List (ZExpr (ZMod p))) :
    Scp A E (Flt.flattenZs es : FlatM p Z _) (fun fs E' => Ins E' fs) := by
  induction es generalizing E with
  | nil => exact pure fun _ _ => .nil
  | cons e es ih =>
    rw [Flt.flattenZs]
    exact bind (flattenZ e) fun u E1 h1 hu => bind (getField hu) fun f E2 h2 hf => bind ih fun fs E3 h3 hfs =>
      pure fun E4 h4 => .cons (hf.mono (h3.trans h4)) (hfs.mono h4)

theorem assertArg (e : ZExpr (ZMod p)) : Scp A E (Flt.assertArg e : FlatM p Z _) (fun _ _ => True) := by
  unfold Flt.assertArg
  split
  · exact bind (unwrap _) fun _ _ _ _ => assert _
  · exact pure fun _ _ => trivial

theorem flattenArgs (es : List (ZExpr (ZMod p))) :
    Scp A E (Flt.flattenArgs es : FlatM p Z _) (fun us E' => ∀ u ∈ us, InU E' u) := by
  induction es generalizing E with
  | nil => exact pure fun _ _ u hu => by cases hu
  | cons e es ih =>
    rw [Flt.flattenArgs]
    refine bind (assertArg e) fun _ E0 _ _ => bind (flattenZ e) fun u E1 h1 hu => bind ih fun us E3 h3 hus =>
      pure fun E4 h4 v hv => ?_
    rcases List.mem_cons.1 hv with rfl | hv
    · exact hu.mono (h3.trans h4)
    · exact (hus v hv).mono h4

theorem getFields {us : List (FlatU p)} (h : ∀ u ∈ us, InU E u) :
    Scp A E (Flt.getFields us : FlatM p Z _) (fun fs E' => Ins E' fs) := by
  induction us generalizing E with
  | nil => exact pure fun _ _ => .nil
  | cons u us ih =>
    rw [Flt.getFields]
    exact bind (getField (h u (by simp))) fun f E2 h2 hf => bind (ih fun v hv => (h v (by simp [hv])).mono h2)
      fun fs E3 h3 hfs => pure fun E4 h4 => .cons (hf.mono (h3.trans h4)) (hfs.mono h4)

theorem constBool (e : FlatExpr (ZMod p)) : Scp A E (Flt.constBool e : FlatM p Z _) (fun _ _ => True) := by
  unfold Flt.constBool
  split
  · exact ite (pure fun _ _ => trivial) (ite (pure fun _ _ => trivial) panic)
  · exact panic

theorem constBools (es : List (FlatExpr (ZMod p))) : Scp A E (Flt.constBools es : FlatM p Z _) (fun _ _ => True) := by
  induction es generalizing E with
  | nil => exact pure fun _ _ => trivial
  | cons e es ih =>
    rw [Flt.constBools]
    exact bind (constBool e) fun _ _ _ _ => bind ih fun _ _ _ _ => pure fun _ _ => trivial

/-- New symbols that are copies of old ones. -/
theorem symsCopy {n : ℕ} {os : List Variable} (ho : ∀ o ∈ os, o ∈ E) (hl : os.length = n) {k : List Variable → FlatM p Z α}
    (hk : ∀ vs E', E ⊆ E' → (∀ v ∈ vs, v ∈ E') → Scp A E' (k vs) P) :
    Scp A E (do
      let vs ← Flt.useSyms n
      Flt.emitAll ((List.zip vs os).map (fun t => .definition t.1 (.ident t.2)))
      k vs) P := by
  intro st a st' D hm hW hE
  obtain ⟨r, st1, h1, h2⟩ := FlatM.bind_some hm
  obtain ⟨_, st2, h3, h4⟩ := FlatM.bind_some h2
  rw [useSyms_eq] at h1
  cases h1; cases h3
  have key : ∀ (vs os : List Variable) (D : Set Variable), vs.Nodup → (∀ v ∈ vs, v ∉ D) → (∀ o ∈ os, o ∈ D) →
      vs.length = os.length → Scs D ((List.zip vs os).map fun t => (.definition t.1 (.ident t.2) : FlatStmt (ZMod p) Z))
        (D ∪ {x | x ∈ vs}) := by
    intro vs
    induction vs with
    | nil =>
      intro os D _ _ _ _
      have : D ∪ {x | x ∈ ([] : List Variable)} = D := by ext x; simp
      rw [this]; exact .nil
    | cons v vs ih =>
      intro os D hnd hv ho hlen
      cases os with
      | nil => cases hlen
      | cons o os =>
        obtain ⟨n1, n2⟩ := List.nodup_cons.1 hnd
        have := ih os (insert v D) n2 (by
          rintro w hw (h | h)
          · exact n1 (by rw [← h]; exact hw)
          · exact hv w (by simp [hw]) h) (fun o ho' => Or.inr (ho o (by simp [ho']))) (by simpa using hlen)
        have he : (insert v D ∪ {x | x ∈ vs} : Set Variable) = D ∪ {x | x ∈ v :: vs} := by
          ext x; simp only [Set.mem_union, Set.mem_insert_iff, Set.mem_ofPred_eq, List.mem_cons]; tauto
        rw [he] at this
        exact .cons (.definition (ho o (by simp)) (hv v (by simp))) this
  have hsc := key (syms st.next n) os D (syms_nodup _ _) (fun v hv => by
    obtain ⟨i, h5, _, rfl⟩ := mem_syms.1 hv
    exact hW.lim i h5) (fun o h => hE (ho o h)) (by simp [syms, hl])
  obtain ⟨D2, w2, s2, f2, n2, p2⟩ := hk (syms st.next n) (D ∪ {x | x ∈ syms st.next n})
    (hE.trans (Set.subset_union_left)) (fun v hv => Or.inr hv) _ _ _ _ h4
    ⟨hW.sc.append hsc, lim_syms hW.lim, fun x v h => Or.inl (hW.layout x v h),
      fun f c h => (hW.cache f c h).mono Set.subset_union_left⟩ (le_refl _)
  exact ⟨D2, w2, (Set.subset_union_left).trans s2, (frame_syms _ _).trans (Nat.le_add_right _ _) f2, by
    have : st.next + n ≤ st'.next := n2
    omega, p2⟩

theorem unpackCall (n : ℕ) {params : List (FlatU p)} (h : ∀ u ∈ params, InU E u) :
    Scp A E (Flt.unpackCall n params : FlatM p Z _) (fun us E' => ∀ u ∈ us, InU E' u) := by
  unfold Flt.unpackCall
  refine bind (getFields h) fun fs E1 h1 hfs => bind (P := fun x E' => x ∈ E') ?_ fun x E2 h2 hx => ?_
  · split
    · exact define (hfs _ (by simp))
    · exact panic
  · refine symsDir (.cons hx .nil) fun os E3 h3 hl hos => bind (emitAll _ ?_) fun _ E4 h4 _ =>
      bind (cond (In.flatFromBits (.idents fun o ho => h4 (hos o ho))) ⟨h4 (h3 hx), trivial⟩ (by simp)) fun _ E5 h5 _ =>
      symsCopy (fun o ho => h5 (h4 (hos o ho))) hl fun vs E6 h6 hvs => pure fun E7 h7 u hu => ?_
    · intro s hs D hD
      obtain ⟨o, ho, rfl⟩ := List.mem_map.1 hs
      have := hD (hos o (List.mem_reverse.1 ho))
      exact .condition this ⟨this, this⟩ (by simp)
    · obtain ⟨v, hv, rfl⟩ := List.mem_map.1 hu
      exact .withField (h7 (hvs v hv))

theorem embedCall (embed : Embed) (generics : List ℕ) (args : List (ZExpr (ZMod p))) :
    Scp A E (Flt.embedCall embed generics args : FlatM p Z _) (fun us E' => ∀ u ∈ us, InU E' u) := by
  unfold Flt.embedCall
  refine bind (flattenArgs args) fun us E1 h1 hus => ?_
  split
  · refine bind (unwrap _) fun u E2 h2 hu => pure fun E3 h3 v hv => ?_
    rw [List.mem_singleton] at hv
    subst hv
    exact (hus _ (List.mem_of_getLast? hu)).mono (h2.trans h3)
  · refine bind (unwrap _) fun u E2 h2 hu => bind (unwrap _) fun bs E3 h3 hb => bind (assert _) fun _ E4 h4 _ =>
      pure fun E5 h5 v hv => ?_
    obtain ⟨f, hf, rfl⟩ := List.mem_map.1 hv
    exact .withField ((((hus _ (List.mem_of_getLast? hu)).2 bs hb) f hf).mono (h2.trans (h3.trans (h4.trans h5))))
  · refine bind (getFields hus) fun bs E2 h2 hb => bind (assert _) fun _ E3 h3 _ => pure fun E4 h4 v hv => ?_
    rw [List.mem_singleton] at hv
    subst hv
    exact .withBits (hb.mono (h3.trans h4))
  · refine bind (unwrap _) fun len E2 h2 _ => bind (assert _) fun _ E3 h3 _ =>
      bind (getFields fun u hu => (hus u (List.mem_of_mem_take hu)).mono (h2.trans h3)) fun es E4 h4 hes =>
      bind (defineAll hes) fun vs E5 h5 hvs =>
      bind (getFields fun u hu => (hus u (List.mem_of_mem_drop hu)).mono (h2.trans (h3.trans (h4.trans h5))))
      fun cs E6 h6 hcs => bind (constBools _) fun bs E7 h7 _ =>
      bind (constantLeCheck _ (.idents fun v hv => h7 (h6 (hvs v hv)))) fun r E8 h8 hr =>
      bind (eqCheck trivial (In.sumFold hr)) fun e E9 h9 he => pure fun E10 h10 v hv => ?_
    rw [List.mem_singleton] at hv
    subst hv
    exact .withField (he.mono h10)
  · exact bind (unwrap _) fun n E2 h2 _ => unpackCall n fun u hu => (hus u hu).mono h2

theorem product {l r z : FlatExpr (ZMod p)} {err : RuntimeError} (he : err ≠ .shaXor) (hl : l.In E) (hr : r.In E)
    (hz : z.In E) : Scp A E (Flt.equalityAssertion.product err l r z : FlatM p Z _) (fun _ _ => True) := by
  unfold Flt.equalityAssertion.product Flt.identify
  exact bind (linearise hz) fun z E1 h1 hz => bind (linearise (hl.mono h1)) fun l E2 h2 hl =>
    bind (linearise (hr.mono (h1.trans h2))) fun r E3 h3 hr =>
    cond (hz.mono (h2.trans h3)) ⟨hl.mono h3, hr⟩ (fun _ _ => he)

theorem equalityAssertion {l r : FlatExpr (ZMod p)} {err : RuntimeError} (he : err ≠ .shaXor) (hl : l.In E)
    (hr : r.In E) : Scp A E (Flt.equalityAssertion l r err : FlatM p Z _) (fun _ _ => True) := by
  unfold Flt.equalityAssertion
  split
  · exact product he hl.1 hl.2 hr
  · exact product he hr.1 hr.2 hl
  · unfold Flt.identify
    exact bind (linearise hr) fun z E1 h1 hz => bind (linearise (hl.mono h1)) fun x E2 h2 hx =>
      cond (hz.mono h2) ⟨hx, trivial⟩ (fun _ _ => he)

theorem notZeroAssertion {x : FlatExpr (ZMod p)} (hx : x.In E) :
    Scp A E (Flt.notZeroAssertion x : FlatM p Z _) (fun _ _ => True) := by
  unfold Flt.notZeroAssertion
  exact bind (define hx) fun v E1 h1 hv => symDir1 (.cons trivial (.cons hv .nil)) fun i E2 h2 hi =>
    cond trivial ⟨hi, h2 hv⟩ (by simp)

theorem naiveAssertion (e : BExpr (ZMod p)) {err : RuntimeError} (he : err ≠ .shaXor) :
    Scp A E (Flt.naiveAssertion e err : FlatM p Z _) (fun _ _ => True) := by
  unfold Flt.naiveAssertion
  exact bind (flattenB e) fun f E1 h1 hf => ite (cond hf trivial (fun _ _ => he)) (cond trivial hf (by simp))

theorem cmpAssertion {max : ZMod p} {cst : FlatExpr (ZMod p) → ZMod p → RuntimeError → FlatM p Z Unit}
    {dyn : FlatExpr (ZMod p) → FlatExpr (ZMod p) → FlatM p Z (FlatExpr (ZMod p))} {l r : FlatExpr (ZMod p)}
    {err : RuntimeError} (he : err ≠ .shaXor) (hl : l.In E) (hr : r.In E)
    (hc : ∀ {E} {e : FlatExpr (ZMod p)} c, e.In E → Scp A E (cst e c err) (fun _ _ => True))
    (hd : ∀ {E} {a b : FlatExpr (ZMod p)}, a.In E → b.In E → OfF A E (dyn a b)) :
    Scp A E (Flt.cmpAssertion max cst dyn l r err) (fun _ _ => True) := by
  unfold Flt.cmpAssertion
  split
  · exact hc _ hl
  · exact hc _ ⟨trivial, hr⟩
  · exact bind (hd hl hr) fun e E1 h1 hin => cond hin trivial (fun _ _ => he)

theorem twoUFields (l r : UExpr (ZMod p)) :
    Scp A E (Flt.twoUFields l r : FlatM p Z _) (fun t E' => t.1.In E' ∧ t.2.In E') := by
  unfold Flt.twoUFields
  exact bind (flattenU l) fun u E1 h1 hu => bind (getField hu) fun a E2 h2 ha => bind (flattenU r) fun v E3 h3 hv =>
    bind (getField hv) fun b E4 h4 hb => pure fun E5 h5 => ⟨ha.mono (h3.trans (h4.trans h5)), hb.mono h5⟩

theorem safeLt {l r : FlatExpr (ZMod p)} (w : ℕ) (hl : l.In E) (hr : r.In E) :
    OfF A E (do Flt.enforceSafe l r; Flt.ltCheck l r w : FlatM p Z _) :=
  bind (enforceSafe hl hr) fun _ E1 h1 _ => ltCheck w (hl.mono h1) (hr.mono h1)

theorem safeLe {l r : FlatExpr (ZMod p)} (w : ℕ) (hl : l.In E) (hr : r.In E) :
    OfF A E (do Flt.enforceSafe l r; Flt.leCheck l r w : FlatM p Z _) :=
  bind (enforceSafe hl hr) fun _ E1 h1 _ => leCheck w (hl.mono h1) (hr.mono h1)

theorem assertion (e : BExpr (ZMod p)) {err : RuntimeError} (he : err ≠ .shaXor) :
    Scp A E (Flt.assertion e err : FlatM p Z _) (fun _ _ => True) := by
  unfold Flt.assertion
  split
  · exact bind (flattenF _) fun a E1 h1 ha => bind (flattenF _) fun b E2 h2 hb => equalityAssertion he (ha.mono h2) hb
  · exact bind (flattenF _) fun a E1 h1 ha => bind (flattenF _) fun b E2 h2 hb => cmpAssertion he (ha.mono h2) hb
      (fun c h => enforceConstantLt c he h) (safeLt _)
  · exact bind (flattenF _) fun a E1 h1 ha => bind (flattenF _) fun b E2 h2 hb => cmpAssertion he (ha.mono h2) hb
      (fun c h => enforceConstantLe c he h) (safeLe _)
  · exact bind (twoUFields _ _) fun (a, b) E1 h1 h => cmpAssertion he h.1 h.2
      (fun c h => enforceConstantLt c he h) (fun hl hr => ltCheck _ hl hr)
  · exact bind (twoUFields _ _) fun (a, b) E1 h1 h => cmpAssertion he h.1 h.2
      (fun c h => enforceConstantLe c he h) (fun hl hr => leCheck _ hl hr)
  · exact bind (twoUFields _ _) fun (a, b) E1 h1 h => equalityAssertion he h.1 h.2
  · exact bind (flattenB _) fun a E1 h1 ha => bind (flattenB _) fun b E2 h2 hb => equalityAssertion he (ha.mono h2) hb
  · split
    · exact bind (flattenU _) fun u E1 h1 hu => bind (getField hu) fun x E2 h2 hx => notZeroAssertion hx
    · exact bind (flattenU _) fun u E1 h1 hu => bind (getField hu) fun x E2 h2 hx => notZeroAssertion hx
    · exact naiveAssertion _ he
  · exact ite (bind (flattenF _) fun x E1 h1 hx => notZeroAssertion hx)
      (ite (bind (flattenF _) fun x E1 h1 hx => notZeroAssertion hx) (naiveAssertion _ he))
  · exact naiveAssertion _ he

theorem assertions (es : List (BExpr (ZMod p))) {err : RuntimeError} (he : err ≠ .shaXor) :
    Scp A E (Flt.assertions err es : FlatM p Z _) (fun _ _ => True) := by
  induction es generalizing E with
  | nil => exact pure fun _ _ => trivial
  | cons e es ih => rw [Flt.assertions]; exact bind (assertion e he) fun _ _ _ _ => ih

theorem lookups (xs : List ZId) : Scp A E (Flt.lookups xs : FlatM p Z _) (fun vs E' => ∀ v ∈ vs, v ∈ E') := by
  induction xs generalizing E with
  | nil => exact pure fun _ _ v hv => by cases hv
  | cons x xs ih =>
    rw [Flt.lookups]
    refine bind (lookup x) fun v E1 h1 hv => bind ih fun vs E2 h2 hvs => pure fun E3 h3 w hw => ?_
    rcases List.mem_cons.1 hw with rfl | hw
    · exact h3 (h2 hv)
    · exact h3 (hvs w hw)

theorem flattenLog (es : List (List (ZExpr (ZMod p)))) :
    Scp A E (Flt.flattenLog es : FlatM p Z _) (fun fs E' => ∀ f ∈ fs, Ins E' f) := by
  induction es generalizing E with
  | nil => exact pure fun _ _ v hv => by cases hv
  | cons x xs ih =>
    rw [Flt.flattenLog]
    refine bind (flattenZs x) fun v E1 h1 hv => bind ih fun vs E2 h2 hvs => pure fun E3 h3 w hw => ?_
    rcases List.mem_cons.1 hw with rfl | hw
    · exact hv.mono (h2.trans h3)
    · exact (hvs w hw).mono h3

theorem useVariables_run {xs : List ZId} {st st' : FlState p Z} {ys : List Variable}
    (h : Flt.useVariables xs st = some (ys, st')) : ys = syms st.next xs.length ∧ st'.next = st.next + xs.length ∧
      st'.out = st.out ∧ st'.cache = st.cache ∧ ∀ x v, st'.layout x = some v → st.layout x = some v ∨ v ∈ ys := by
  induction xs generalizing st ys with
  | nil => cases h; exact ⟨rfl, rfl, rfl, rfl, fun x v h => Or.inl h⟩
  | cons x xs ih =>
    rw [Flt.useVariables] at h
    obtain ⟨y, st1, h1, h2⟩ := FlatM.bind_some h
    obtain ⟨ys', st2, h3, h4⟩ := FlatM.bind_some h2
    have h5 : some (y :: ys', st2) = some (ys, st') := h4
    cases h5
    cases h1
    obtain ⟨g1, g2, g3, g4, g5⟩ := ih h3
    simp only at g1 g2 g3 g4 g5
    refine ⟨?_, ?_, g3, g4, ?_⟩
    · rw [List.length_cons, syms_succ, g1]
    · rw [g2, List.length_cons]; omega
    · intro z v hz
      rcases g5 z v hz with h | h
      · split at h
        · cases h; exact Or.inr (by simp)
        · exact Or.inl h
      · exact Or.inr (by simp [h])

theorem flattenAsm (s : ZAsm (ZMod p) Z) : Scp A E (Flt.flattenAsm s) (fun _ _ => True) := by
  cases s with
  | assignment xs f args =>
    rw [Flt.flattenAsm]
    refine bind (lookups args) fun ins E1 h1 hins => ?_
    intro st a st' D hm hW hE
    obtain ⟨ys, st1, h2, h3⟩ := FlatM.bind_some hm
    cases h3
    obtain ⟨rfl, g2, g3, g4, g5⟩ := useVariables_run h2
    refine ⟨D ∪ {x | x ∈ syms st.next xs.length}, ⟨?_, ?_, ?_, ?_⟩, Set.subset_union_left, frame_syms _ _, ?_, trivial⟩
    · show Scs A (st1.out ++ _) _
      rw [g3]
      refine hW.sc.snoc (.directive ?_ (syms_nodup _ _) ?_)
      · exact Ins.idents fun v hv => hE (hins v hv)
      · intro x hx
        obtain ⟨i, h5, _, rfl⟩ := mem_syms.1 hx
        exact hW.lim i h5
    · show ∀ k, st1.next ≤ k → _
      rw [g2]; exact lim_syms hW.lim
    · intro x v h
      rcases g5 x v h with h | h
      · exact Or.inl (hW.layout x v h)
      · exact Or.inr h
    · show ∀ f c, st1.cache f = some c → _
      rw [g4]; exact fun f c h => (hW.cache f c h).mono Set.subset_union_left
    · show st.next ≤ st1.next
      omega
  | constraint l r info =>
    rw [Flt.flattenAsm]
    exact bind (flattenF _) fun a E1 h1 ha => bind (flattenF _) fun b E2 h2 hb => cond (ha.mono h2) hb (by simp)

theorem flattenAsms (ss : List (ZAsm (ZMod p) Z)) : Scp A E (Flt.flattenAsms ss) (fun _ _ => True) := by
  induction ss generalizing E with
  | nil => exact pure fun _ _ => trivial
  | cons s ss ih => rw [Flt.flattenAsms]; exact bind (flattenAsm s) fun _ _ _ _ => ih

theorem inBlock {m : FlatM p Z Unit} (h : ∀ A E, Scp A E m (fun _ _ => True)) :
    Scp A E (Flt.inBlock m) (fun _ _ => True) := by
  intro st a st' D hm hW hE
  unfold Flt.inBlock at hm
  split at hm
  · cases hm
  · rename_i _ _ st1 h1
    cases hm
    obtain ⟨D1, w1, s1, f1, n1, _⟩ := h D D _ _ _ D h1 ⟨.nil, hW.lim, hW.layout, hW.cache⟩ (le_refl _)
    exact ⟨D1, ⟨hW.sc.snoc (.block w1.sc), w1.lim, w1.layout, w1.cache⟩, s1, f1, n1, trivial⟩

theorem useExisting {x : ZId} {v : Variable} (hv : v ∈ E) :
    Scp A E (Flt.useExisting x v : FlatM p Z _) (fun _ _ => True) := by
  intro st a st' D hm hW hE
  cases hm
  refine ⟨D, ⟨hW.sc, hW.lim, ?_, hW.cache⟩, le_refl _, .refl, le_rfl, trivial⟩
  intro y w h
  simp only at h
  split at h
  · cases h; exact hE hv
  · exact hW.layout y w h

theorem useVariableDef {x : ZId} {e : FlatExpr (ZMod p)} (he : e.In E) :
    Scp A E (do let v ← Flt.useVariable x; Flt.emit (.definition v e); Pure.pure v : FlatM p Z _)
      (fun v E' => v ∈ E') := by
  intro st a st' D hm hW hE
  obtain ⟨r, st1, h1, h2⟩ := FlatM.bind_some hm
  obtain ⟨_, st2, h3, h4⟩ := FlatM.bind_some h2
  cases h1; cases h3; cases h4
  refine ⟨insert (Variable.new st.next) D, ⟨hW.sc.snoc (.definition (he.mono hE) (hW.lim _ le_rfl)), lim_insert hW.lim,
    ?_, fun f c h => (hW.cache f c h).mono (Set.subset_insert _ _)⟩, Set.subset_insert _ _, frame_insert _,
    Nat.le_succ _, Set.mem_insert _ _⟩
  intro y w h
  simp only at h
  split at h
  · cases h; exact Set.mem_insert _ _
  · exact Or.inr (hW.layout y w h)

theorem bindVar {x : ZId} {f : FlatExpr (ZMod p)} (hf : f.In E) :
    Scp A E (Flt.bindVar x f : FlatM p Z _) (fun v E' => v ∈ E') := by
  unfold Flt.bindVar
  split
  · exact bind (useExisting hf) fun _ E1 h1 _ => pure fun E2 h2 => h2 (h1 hf)
  · exact useVariableDef hf

theorem bindVars {xs : List ZId} {us : List (FlatU p)} (h : ∀ u ∈ us, InU E u) :
    Scp A E (Flt.bindVars xs us : FlatM p Z _) (fun vs E' => ∀ v ∈ vs, v ∈ E') := by
  induction xs generalizing us E with
  | nil => cases us <;> exact pure fun _ _ v hv => by cases hv
  | cons x xs ih => cases us with
    | nil => exact pure fun _ _ v hv => by cases hv
    | cons u us =>
      rw [Flt.bindVars]
      refine bind (getField (h u (by simp))) fun f E1 h1 hf => bind (bindVar hf) fun v E2 h2 hv =>
        bind (ih fun w hw => (h w (by simp [hw])).mono (h1.trans h2)) fun vs E3 h3 hvs => pure fun E4 h4 w hw => ?_
      rcases List.mem_cons.1 hw with rfl | hw
      · exact h4 (h3 hv)
      · exact h4 (hvs w hw)

end Scp

mutual
/-- A statement that does not return. -/
theorem Scp.flattenStmt (s : ZStmt (ZMod p) Z) (hs : s.Inner) (A E : Set Variable) :
    Scp A E (Flt.flattenStmt s) (fun _ _ => True) := by
  cases s <;> rw [Flt.flattenStmt]
  case ret => exact absurd hs (by simp [ZStmt.Inner])
  case assembly ss => exact .inBlock fun A E => .flattenAsms ss
  case ifElse c t e =>
    rw [ZStmt.Inner] at hs
    exact .bind (.flattenB c) fun f E1 h1 hf => .bind (.newDef hf) fun _ E2 h2 _ =>
      .bind (Scp.flattenStmts t hs.1 A _) fun _ E3 h3 _ => Scp.flattenStmts e hs.2 A _
  case definition x e =>
    refine .bind (.flattenZ e) fun u E1 h1 hu => .bind (.getField hu) fun f E2 h2 hf => .bind (.bindVar hf)
      fun v E3 h3 hv => ?_
    split
    · rename_i bs hbs
      exact .setCache _ _ ((hu.2 bs hbs).mono (h2.trans h3))
    · exact .pure fun _ _ => trivial
  case assertion e err =>
    rw [ZStmt.Inner] at hs
    exact .assertions _ (RuntimeError.ofZir_ne hs)
  case multiDef xs embed generics args =>
    refine .bind (.embedCall _ _ _) fun us E1 h1 hus => .bind (.assert _) fun _ E2 h2 _ =>
      .bind (.bindVars fun u hu => (hus u hu).mono h2) fun vs E3 h3 hvs => ?_
    split
    · exact .bind (.flattenZs args) fun bs E4 h4 hbs => .bind (.unwrap _) fun v E5 h5 _ => .setCache _ _ (hbs.mono h5)
    · exact .pure fun _ _ => trivial
  case log es =>
    exact .bind (.flattenLog es) fun fs E1 h1 hfs => .emit _ fun D hD => .log fun es hes e he =>
      ((hfs es hes) e he).mono hD
/-- Statements that do not return. -/
theorem Scp.flattenStmts (ss : List (ZStmt (ZMod p) Z)) (hs : ZStmt.InnerL ss) (A E : Set Variable) :
    Scp A E (Flt.flattenStmts ss) (fun _ _ => True) := by
  cases ss with
  | nil => rw [Flt.flattenStmts]; exact .pure fun _ _ => trivial
  | cons s ss =>
    rw [Flt.flattenStmts]
    rw [ZStmt.InnerL] at hs
    exact .bind (Scp.flattenStmt s hs.1 A E) fun _ E1 h1 _ => Scp.flattenStmts ss hs.2 A E1
end

/-! ### Functions -/

mutual
theorem Sc.subset {D D' : Set Variable} {s : FlatStmt (ZMod p) Z} (h : Sc D s D') : D ⊆ D' := by
  cases h with
  | condition => exact le_refl _
  | computed => exact Set.subset_insert _ _
  | definition => exact Set.subset_insert _ _
  | directive => exact Set.subset_union_left
  | log => exact le_refl _
  | block h => exact Scs.subset h
theorem Scs.subset {D D' : Set Variable} {ss : List (FlatStmt (ZMod p) Z)} (h : Scs D ss D') : D ⊆ D' := by
  cases h with
  | nil => exact le_refl _
  | cons h1 h2 => exact (Sc.subset h1).trans (Scs.subset h2)
end

mutual
/-- One more variable in scope. -/
theorem Sc.weaken {x : Variable} {D D' : Set Variable} {s : FlatStmt (ZMod p) Z} (h : Sc D s D') (hx : x ∉ D') :
    Sc (insert x D) s (insert x D') := by
  have hs : D ⊆ insert x D := Set.subset_insert _ _
  cases h with
  | condition h1 h2 h3 => exact .condition (h1.mono hs) (h2.mono hs) h3
  | @computed _ v q h1 h2 =>
    rw [Set.insert_comm]
    refine .computed (h1.mono hs) ?_
    rintro (h | h)
    · exact hx (Or.inl h.symm)
    · exact h2 h
  | @definition _ v e h1 h2 =>
    rw [Set.insert_comm]
    refine .definition (h1.mono hs) ?_
    rintro (h | h)
    · exact hx (Or.inl h.symm)
    · exact h2 h
  | @directive _ o s i h1 h2 h3 =>
    rw [← Set.insert_union]
    refine .directive (fun e he => (h1 e he).mono hs) h2 ?_
    rintro y hy (h | h)
    · exact hx (Or.inr (by rw [← h]; exact hy))
    · exact h3 y hy h
  | log h1 => exact .log fun es hes e he => (h1 es hes e he).mono hs
  | block h1 => exact .block (Scs.weaken h1 hx)
theorem Scs.weaken {x : Variable} {D D' : Set Variable} {ss : List (FlatStmt (ZMod p) Z)} (h : Scs D ss D')
    (hx : x ∉ D') : Scs (insert x D) ss (insert x D') := by
  cases h with
  | nil => exact .nil
  | cons h1 h2 => exact .cons (Sc.weaken h1 fun h => hx (Scs.subset h2 h)) (Scs.weaken h2 hx)
end

/-- The state with one entry of the layout replaced. -/
def FlState.layoutSet (st : FlState p Z) (x : ZId) (v : Variable) : FlState p Z :=
  { st with layout := fun y => if y = x then some v else st.layout y }

/-- A parameter is a new variable that is in scope from the start. -/
theorem useParameter_scope {q : ZParam} {st st' : FlState p Z} {a : Parameter} {A D : Set Variable}
    (h : Flt.useParameter q st = some (a, st')) (hW : W A st D) :
    ∃ D', W (insert a.id A) st' D' ∧ D ⊆ D' ∧ Frame st.next D D' ∧ st.next < st'.next ∧ a.id = Variable.new st.next := by
  unfold Flt.useParameter at h
  obtain ⟨v, st1, h1, h2⟩ := FlatM.bind_some h
  obtain ⟨_, st2, h3, h4⟩ := FlatM.bind_some h2
  have h5 : some (⟨v, q.priv⟩, st2) = some (a, st') := h4
  cases h5
  cases h1
  have hx := hW.lim st.next le_rfl
  have w1 : W (insert (Variable.new st.next) A) (({ st with next := st.next + 1 } : FlState p Z).layoutSet q.id
      (Variable.new st.next)) (insert (Variable.new st.next) D) := by
    refine ⟨hW.sc.weaken hx, lim_insert hW.lim, ?_, fun f c h => (hW.cache f c h).mono (Set.subset_insert _ _)⟩
    intro y w h
    simp only [FlState.layoutSet] at h
    split at h
    · cases h; exact Set.mem_insert _ _
    · exact Or.inr (hW.layout y w h)
  have key : Scp (insert (Variable.new st.next) A) (insert (Variable.new st.next) D) (match q.ty with
      | .uint w => do
        let _ ← Flt.getBits (Flt.withField (.ident (Variable.new st.next))) w w .sum
        Pure.pure ()
      | .bool => Flt.emit (Flt.bitness (.ident (Variable.new st.next)) .argumentBitness)
      | .field => Pure.pure () : FlatM p Z Unit) (fun _ _ => True) := by
    have hin : Variable.new st.next ∈ (insert (Variable.new st.next) D : Set Variable) := Set.mem_insert _ _
    cases q.ty with
    | field => exact .pure fun _ _ => trivial
    | bool => exact .cond hin ⟨hin, hin⟩ (by simp)
    | uint w => exact .bind (.getBits _ _ (by simp) (.withField hin)) fun _ _ _ _ => .pure fun _ _ => trivial
  obtain ⟨D2, w2, s2, f2, n2, _⟩ := key _ _ _ _ h3 w1 (le_refl _)
  refine ⟨D2, w2, (Set.subset_insert _ _).trans s2, (frame_insert _).trans (Nat.le_succ _) f2, ?_, rfl⟩
  have : st.next + 1 ≤ st'.next := n2
  omega

/-- The parameters of a function. -/
theorem useParameters_scope {qs : List ZParam} {st st' : FlState p Z} {as : List Parameter} {A D : Set Variable}
    (h : Flt.useParameters qs st = some (as, st')) (hW : W A st D) :
    ∃ D', W (A ∪ {x | ∃ a ∈ as, x = a.id}) st' D' ∧ D ⊆ D' ∧ Frame st.next D D' ∧ st.next ≤ st'.next ∧
      (∀ a ∈ as, ∃ k, st.next ≤ k ∧ a.id = Variable.new k) ∧ (as.map (·.id)).Nodup ∧ as.length = qs.length := by
  induction qs generalizing st as A D with
  | nil =>
    cases h
    refine ⟨D, ?_, le_refl _, .refl, le_rfl, (fun a h => by cases h), List.nodup_nil, rfl⟩
    have : A ∪ {x | ∃ a ∈ ([] : List Parameter), x = a.id} = A := by ext x; simp
    rw [this]; exact hW
  | cons q qs ih =>
    rw [Flt.useParameters] at h
    obtain ⟨a, st1, h1, h2⟩ := FlatM.bind_some h
    obtain ⟨as', st2, h3, h4⟩ := FlatM.bind_some h2
    have h5 : some (a :: as', st2) = some (as, st') := h4
    cases h5
    obtain ⟨D1, w1, s1, f1, n1, ha⟩ := useParameter_scope h1 hW
    obtain ⟨D2, w2, s2, f2, n2, has, hnd, hlen⟩ := ih h3 w1
    refine ⟨D2, ?_, s1.trans s2, f1.trans n1.le f2, n1.le.trans n2, ?_, ?_, by simp [hlen]⟩
    · have : (insert a.id A ∪ {x | ∃ a ∈ as', x = a.id} : Set Variable) = A ∪ {x | ∃ b ∈ a :: as', x = b.id} := by
        ext x; simp only [Set.mem_union, Set.mem_insert_iff, Set.mem_ofPred_eq, List.mem_cons, exists_eq_or_imp]; tauto
      rw [← this]; exact w2
    · intro b hb
      rcases List.mem_cons.1 hb with rfl | hb
      · exact ⟨st.next, le_rfl, ha⟩
      · obtain ⟨k, hk, h6⟩ := has b hb
        exact ⟨k, n1.le.trans hk, h6⟩
    · rw [List.map_cons, List.nodup_cons]
      refine ⟨fun h6 => ?_, hnd⟩
      obtain ⟨b, hb, h7⟩ := List.mem_map.1 h6
      obtain ⟨k, hk, h8⟩ := has b hb
      rw [ha, h8] at h7
      have := new_inj h7
      omega

theorem pub_ne_new (i k : ℕ) : Variable.pub i ≠ Variable.new k := by
  intro h
  have h' : (-(i : ℤ) - 1) = 1 + k := h
  omega

theorem pub_inj {i j : ℕ} (h : Variable.pub i = Variable.pub j) : i = j := by
  have h' : (-(i : ℤ) - 1) = -(j : ℤ) - 1 := h
  omega

theorem flattenStmts_append {ss tt : List (ZStmt (ZMod p) Z)} {st st' : FlState p Z}
    (h : Flt.flattenStmts (ss ++ tt) st = some ((), st')) :
    ∃ st1, Flt.flattenStmts ss st = some ((), st1) ∧ Flt.flattenStmts tt st1 = some ((), st') := by
  induction ss generalizing st with
  | nil => exact ⟨st, by rw [Flt.flattenStmts]; rfl, h⟩
  | cons s ss ih =>
    rw [List.cons_append, Flt.flattenStmts] at h
    obtain ⟨_, st1, h1, h2⟩ := FlatM.bind_some h
    obtain ⟨st2, h3, h4⟩ := ih h2
    refine ⟨st2, ?_, h4⟩
    rw [Flt.flattenStmts]
    show (Flt.flattenStmt s st).bind _ = _
    rw [h1]; exact h3

theorem outputDefs_scope (fs : List (FlatExpr (ZMod p))) (n : ℕ) : ∀ (D : Set Variable), Ins D fs →
    (∀ i, n ≤ i → Variable.pub i ∉ D) →
    ∃ D', Scs D ((fs.zipIdx n).map fun t => (.definition (Variable.pub t.2) t.1 : FlatStmt (ZMod p) Z)) D' := by
  induction fs generalizing n with
  | nil => intro D _ _; exact ⟨D, .nil⟩
  | cons f fs ih =>
    intro D hf hn
    obtain ⟨D', h⟩ := ih (n + 1) (insert (Variable.pub n) D) ((hf.sub (by simp)).mono (Set.subset_insert _ _)) (by
      rintro i hi (h | h)
      · have := pub_inj h; omega
      · exact hn i (by omega) h)
    exact ⟨D', .cons (.definition (hf f (by simp)) (hn n le_rfl)) h⟩

theorem flattenZs_length {es : List (ZExpr (ZMod p))} {st st' : FlState p Z} {fs : List (FlatExpr (ZMod p))}
    (h : Flt.flattenZs es st = some (fs, st')) : fs.length = es.length := by
  induction es generalizing st fs st' with
  | nil => cases h; rfl
  | cons e es ih =>
    rw [Flt.flattenZs] at h
    obtain ⟨u, st1, h1, h2⟩ := FlatM.bind_some h
    obtain ⟨f, st2, h3, h4⟩ := FlatM.bind_some h2
    obtain ⟨fs', st3, h5, h6⟩ := FlatM.bind_some h4
    have h7 : some (f :: fs', st3) = some (fs, st') := h6
    cases h7
    simp [ih h5]

/-- The flattener emits well-scoped statements, followed by the definitions of the outputs. -/
theorem flattenFun_scope {f : ZFun (ZMod p) Z} (hf : SingleReturn f) {as : List Parameter} {st' : FlState p Z}
    (h : Flt.flattenFun f (FlState.init p Z) = some (as, st')) :
    (∃ pre fs D, st'.out = pre ++ Flt.outputDefs fs ∧ Scs {x | ∃ a ∈ as, x = a.id} pre D ∧ Ins D fs ∧
      (∀ x ∈ D, ∃ k, x = Variable.new k) ∧ ∀ ss es, f.body = ss ++ [.ret es] → fs.length = es.length) ∧
      (as.map (·.id)).Nodup ∧ as.length = f.params.length := by
  unfold Flt.flattenFun at h
  obtain ⟨as', st1, h1, h2⟩ := FlatM.bind_some h
  obtain ⟨_, st2, h3, h4⟩ := FlatM.bind_some h2
  have h5 : some (as', st2) = some (as, st') := h4
  cases h5
  have w0 : W (∅ : Set Variable) (FlState.init p Z) ∅ :=
    ⟨.nil, fun _ _ h => h, (fun x v h => by cases h), fun f c h => by cases h⟩
  obtain ⟨D1, w1, _, f1, _, has, hnd, hlen⟩ := useParameters_scope h1 w0
  rw [Set.empty_union] at w1
  obtain ⟨ss, es, hb, hin⟩ := hf
  rw [hb] at h3
  obtain ⟨st3, h6, h7⟩ := flattenStmts_append h3
  obtain ⟨D2, w2, s2, f2, _, _⟩ := Scp.flattenStmts ss hin _ _ _ _ _ _ h6 w1 (le_refl D1)
  rw [Flt.flattenStmts] at h7
  obtain ⟨_, st4, h8, h9⟩ := FlatM.bind_some h7
  rw [Flt.flattenStmts] at h9
  cases h9
  rw [Flt.flattenStmt] at h8
  obtain ⟨fs, st5, h10, h11⟩ := FlatM.bind_some h8
  cases h11
  obtain ⟨D3, w3, s3, f3, _, hfs⟩ := Scp.flattenZs es _ _ _ _ h10 w2 (le_refl D2)
  refine ⟨⟨st5.out, fs, D3, rfl, w3.sc, hfs, ?_, ?_⟩, hnd, hlen⟩
  · intro x hi
    rcases f3 _ hi with hi | ⟨k, _, hi⟩
    · rcases f2 _ hi with hi | ⟨k, _, hi⟩
      · rcases f1 _ hi with hi | ⟨k, _, hi⟩
        · exact hi.elim
        · exact ⟨k, hi⟩
      · exact ⟨k, hi⟩
    · exact ⟨k, hi⟩
  · intro ss' es' hb'
    rw [hb] at hb'
    have := (List.append_inj' hb' rfl).2
    cases this
    exact flattenZs_length h10

end Zok
