import Verif.Lemmas.ReducerStmt

/-
The reducer: static single assignment form, what the reducer keeps, and statements without calls.
-/

set_option linter.unusedSectionVars false
set_option linter.unusedSimpArgs false

namespace Zok.Typed
open Abi
variable {p : ℕ} [Fact p.Prime] {Z : Type} {O : Oracle p Z} {C C' : Consts (ZMod p)} {A B : Prop}

/-! ### Identifiers -/

theorem frameOf_nid (fr n v : ℕ) : frameOf (nid fr n v) = fr := by simp [frameOf, nid]
theorem nameOf_nid (fr n v : ℕ) : nameOf (nid fr n v) = n := by simp [nameOf, nid]
theorem nid_inj {fr n v fr' n' v' : ℕ} (h : nid fr n v = nid fr' n' v') : fr = fr' ∧ n = n' ∧ v = v' := by
  simp only [nid, Nat.pair_eq_pair] at h
  exact h

theorem frameOf_ssa (V : Vers) (fr : ℕ) (x : TId) : frameOf (ssaName V fr x) = fr := frameOf_nid _ _ _
theorem nameOf_ssa (V : Vers) (fr : ℕ) (x : TId) : nameOf (ssaName V fr x) = x + 1 := nameOf_nid _ _ _
theorem cur_ssa (V : Vers) (fr : ℕ) (x : TId) : Cur V fr (ssaName V fr x) := by
  simp only [Cur, ssaAgain, nameOf_ssa]
  rfl
theorem ssaName_issue (V : Vers) (fr : ℕ) {x y : TId} (h : y ≠ x) : ssaName (V.issue (x + 1)) fr y = ssaName V fr y := by
  have : y + 1 ≠ x + 1 := by
    intro hc
    exact h (Nat.succ.inj hc)
  simp only [ssaName, Vers.cur, Vers.issue, if_neg this]
theorem ssaName_ne (V V' : Vers) (fr v : ℕ) {x y : TId} (h : y ≠ x) : ssaName V fr y ≠ nid fr (x + 1) v := by
  intro hc
  exact h (Nat.succ.inj (nid_inj hc).2.1)

/-- An identifier of a frame up to `L`. Name 0 is not used in the frame of the main function. -/
def Named (L : ℕ) (x : TId) : Prop := frameOf x ≤ L ∧ (nameOf x = 0 → 0 < frameOf x)

theorem named_ssa {V : Vers} {fr L : ℕ} (h : fr ≤ L) (x : TId) : Named L (ssaName V fr x) := ⟨by rw [frameOf_ssa]; exact h, fun h => by rw [nameOf_ssa] at h; cases h⟩
theorem Named.mono {L L' : ℕ} {x : TId} (h : Named L x) (hl : L ≤ L') : Named L' x := ⟨h.1.trans hl, h.2⟩

/-- The values of the current versions. -/
def Names (V : Vers) (fr : ℕ) (ρ env : TEnv p) : Prop := ∀ x, ρ (ssaName V fr x) = env x

/-! ### Assignees -/

theorem ssaA_ty (V : Vers) (fr : ℕ) (a : TAssignee (ZMod p)) : (ssaAssignee V fr a).2.ty = a.ty := by
  cases a <;> simp only [ssaAssignee, aty_ren, TAssignee.ty]
theorem ssaA_wt (V : Vers) (fr : ℕ) (a : TAssignee (ZMod p)) : (ssaAssignee V fr a).2.Wt ↔ a.Wt := by
  cases a <;> simp only [ssaAssignee, awt_ren, TAssignee.Wt]
theorem ssaA_root (V : Vers) (fr : ℕ) (a : TAssignee (ZMod p)) : (ssaAssignee V fr a).2.root = ssaName (ssaAssignee V fr a).1 fr a.root := by
  cases a with
  | ident x t => rfl
  | select a i => exact root_ren _ _
  | member a i => exact root_ren _ _
  | element a i => exact root_ren _ _

theorem ssaA_indices (V : Vers) (fr : ℕ) (a : TAssignee (ZMod p)) : ∀ x ∈ varsL (ssaAssignee V fr a).2.indices, ∃ y, x = ssaName V fr y ∧ Cur (ssaAssignee V fr a).1 fr x := by
  have h : ∀ a : TAssignee (ZMod p), ∀ x ∈ varsL (a.ren (ssaName V fr)).indices, ∃ y, x = ssaName V fr y ∧ Cur V fr x := fun a x hx => by
    rw [indices_ren, vars_renL] at hx
    obtain ⟨y, -, rfl⟩ := List.mem_map.mp hx
    exact ⟨y, rfl, cur_ssa V fr y⟩
  cases a with
  | ident x t => intro x hx; simp [ssaAssignee, TAssignee.indices, varsL] at hx
  | select a i => exact h _
  | member a i => exact h _
  | element a i => exact h _

theorem ssaA_vars (V : Vers) (fr : ℕ) (a : TAssignee (ZMod p)) : ∀ x ∈ (ssaAssignee V fr a).2.vars, frameOf x = fr ∧ nameOf x ≠ 0 := by
  intro x hx
  simp only [TAssignee.vars, List.mem_cons] at hx
  rcases hx with rfl | hx
  · rw [ssaA_root]
    exact ⟨frameOf_ssa _ _ _, by rw [nameOf_ssa]; exact Nat.succ_ne_zero _⟩
  · obtain ⟨y, rfl, -⟩ := ssaA_indices V fr a x hx
    exact ⟨frameOf_ssa _ _ _, by rw [nameOf_ssa]; exact Nat.succ_ne_zero _⟩

theorem ssaA_set {V : Vers} {fr : ℕ} {ρ env : TEnv p} (hn : Names V fr ρ env) (a : TAssignee (ZMod p)) (v : AVal (ZMod p)) : setA ρ (ssaAssignee V fr a).2 v = setA env a v := by
  have : (fun x => ρ (ssaName V fr x)) = env := funext hn
  cases a <;> simp only [ssaAssignee, set_ren, this, setA]

theorem ssaA_other (V : Vers) (fr : ℕ) (a : TAssignee (ZMod p)) {x : TId} (h : x ≠ a.root) : ssaName (ssaAssignee V fr a).1 fr x = ssaName V fr x := by
  cases a with
  | ident y t => exact ssaName_issue V fr h
  | _ => rfl

theorem ssaA_names {V : Vers} {fr : ℕ} {ρ env : TEnv p} (hn : Names V fr ρ env) (a : TAssignee (ZMod p)) (u : AVal (ZMod p)) :
    Names (ssaAssignee V fr a).1 fr (fun y => if y = (ssaAssignee V fr a).2.root then some u else ρ y) (fun y => if y = a.root then some u else env y) := by
  intro x
  simp only [ssaA_root]
  by_cases h : x = a.root
  · subst h
    simp
  · have : ssaName (ssaAssignee V fr a).1 fr x ≠ ssaName (ssaAssignee V fr a).1 fr a.root := fun hc => h (Nat.succ.inj (nid_inj hc).2.1)
    rw [if_neg this, if_neg h, ssaA_other V fr a h, hn x]

theorem ssa_sliceOk {V : Vers} {fr : ℕ} {a : TAssignee (ZMod p)} {e : TExpr (ZMod p)} (h : ∀ x t, a = .ident x t → e.MayDefine x) :
    SliceOk (ssaAssignee V fr a).1 fr (e.ren (ssaName V fr)) := by
  have all : SliceOk V fr (e.ren (ssaName V fr)) := .inr fun x hx => by
    rw [vars_renT] at hx
    obtain ⟨y, -, rfl⟩ := List.mem_map.mp hx
    exact cur_ssa V fr y
  cases a with
  | ident x t =>
    rcases h x t rfl with h | h
    · refine .inr fun z hz => ?_
      rw [vars_renT] at hz
      obtain ⟨y, hy, rfl⟩ := List.mem_map.mp hz
      rw [← ssaName_issue V fr (fun hc => h (hc ▸ hy) : y ≠ x)]
      exact cur_ssa _ fr y
    · exact .inl ((noSlice_renT _ _).mpr h)
  | _ => exact all

/-! ### Statements in static single assignment form -/

theorem ssaS_assigns (V : Vers) (fr : ℕ) (s : TStmt (ZMod p)) : ∀ x ∈ (ssaStmt V fr s).2.assigns, frameOf x = fr ∧ nameOf x ≠ 0 := by
  cases s with
  | definition a e | embed a f g args =>
    intro x hx
    simp only [ssaStmt, TStmt.assigns, List.mem_singleton] at hx
    subst hx
    exact ssaA_vars V fr a _ (by simp [TAssignee.vars])
  | _ => intro x hx; simp [ssaStmt, TStmt.assigns] at hx

theorem ssaS_vars (V : Vers) (fr : ℕ) (s : TStmt (ZMod p)) : ∀ x ∈ (ssaStmt V fr s).2.vars, frameOf x = fr ∧ nameOf x ≠ 0 := by
  have h1 : ∀ e : TExpr (ZMod p), ∀ x ∈ (e.ren (ssaName V fr)).vars, frameOf x = fr ∧ nameOf x ≠ 0 := fun e x hx => by
    rw [vars_renT] at hx
    obtain ⟨y, -, rfl⟩ := List.mem_map.mp hx
    exact ⟨frameOf_ssa _ _ _, by rw [nameOf_ssa]; exact Nat.succ_ne_zero _⟩
  have h2 : ∀ es : List (TExpr (ZMod p)), ∀ x ∈ varsL (renL (ssaName V fr) es), frameOf x = fr ∧ nameOf x ≠ 0 := fun e x hx => by
    rw [vars_renL] at hx
    obtain ⟨y, -, rfl⟩ := List.mem_map.mp hx
    exact ⟨frameOf_ssa _ _ _, by rw [nameOf_ssa]; exact Nat.succ_ne_zero _⟩
  intro x hx
  cases s with
  | ret e => exact h1 _ x hx
  | assertion e err => exact h1 _ x hx
  | log es => exact h2 _ x hx
  | definition a e =>
    simp only [ssaStmt, TStmt.vars, List.mem_append] at hx
    exact hx.elim (h1 _ x) (ssaA_vars V fr a x)
  | embed a f g args =>
    simp only [ssaStmt, TStmt.vars, List.mem_append] at hx
    exact hx.elim (h2 _ x) (ssaA_vars V fr a x)

theorem ssaS_wt (V : Vers) (fr : ℕ) {t : CType} {s : TStmt (ZMod p)} (hw : (SStmt.simple s).Wt t) : (ssaStmt V fr s).2.Wt t ∧ (ssaStmt V fr s).2.ArgsTyped ∧ (ssaStmt V fr s).2.Pure ∧
    (ssaStmt V fr s).2.SliceOk (ssaStmt V fr s).1 fr := by
  have all : ∀ e : TExpr (ZMod p), SliceOk V fr (e.ren (ssaName V fr)) := fun e => .inr fun x hx => by
    rw [vars_renT] at hx
    obtain ⟨y, -, rfl⟩ := List.mem_map.mp hx
    exact cur_ssa V fr y
  cases s with
  | ret e =>
    simp only [SStmt.Wt] at hw
    exact ⟨⟨by rw [ty_ren]; exact hw.1, (wt_renT _ _).mpr hw.2⟩, trivial, trivial, all e⟩
  | assertion e err =>
    simp only [SStmt.Wt] at hw
    exact ⟨⟨by rw [ty_ren]; exact hw.1, (wt_renT _ _).mpr hw.2⟩, trivial, trivial, all e⟩
  | log es =>
    simp only [SStmt.Wt] at hw
    refine ⟨(wt_renL _ _).mpr hw, trivial, trivial, fun e he => ?_⟩
    rw [renL_map] at he
    obtain ⟨e, -, rfl⟩ := List.mem_map.mp he
    exact all e
  | definition a e =>
    simp only [SStmt.Wt] at hw
    obtain ⟨⟨w1, w2, w3⟩, w4⟩ := hw
    refine ⟨⟨by rw [ssaA_ty, ty_ren]; exact w1, (ssaA_wt _ _ _).mpr w2, (wt_renT _ _).mpr w3⟩, trivial, trivial, fun x hx => ?_, ssa_sliceOk w4⟩
    obtain ⟨y, -, hy⟩ := ssaA_indices V fr a x hx
    exact hy
  | embed a f g args => simp only [SStmt.Wt] at hw

/-- Execution in static single assignment form. -/
theorem ssaS_exec {V : Vers} {fr : ℕ} {s : TStmt (ZMod p)} {σ σ' : TState p} (h : ExecT O σ s (.ok σ')) (hs : s.Pure) {ρ : TEnv p} (hn : Names V fr ρ σ.env)
    {K : Option (AVal (ZMod p)) → Option (AVal (ZMod p)) → Prop} (hK : (∀ v, K (some v) (some v)) ∨ (SStmt.simple s).NoRet) {o : Option (AVal (ZMod p))} (ho : K σ.out o) :
    ∃ τ', ExecT O ⟨ρ, o⟩ (ssaStmt V fr s).2 (.ok τ') ∧ Names (ssaStmt V fr s).1 fr τ'.env σ'.env ∧ K σ'.out τ'.out := by
  have he : (fun x => ρ (ssaName V fr x)) = σ.env := funext hn
  cases h with
  | ret hv =>
    refine ⟨⟨ρ, some _⟩, .ret (by rw [eval_renT, he]; exact hv), hn, ?_⟩
    rcases hK with hK | hK
    · exact hK _
    · exact hK.elim
  | assertOk hv => exact ⟨⟨ρ, o⟩, .assertOk (by rw [eval_renT, he]; exact hv), hn, ho⟩
  | log hv => exact ⟨⟨ρ, o⟩, .log (by rw [eval_renL, he]; exact hv), hn, ho⟩
  | embed => exact hs.elim
  | @definition a e v u hv hu =>
    exact ⟨_, .definition (by rw [eval_renT, he]; exact hv) (by rw [ssaA_set hn]; exact hu), ssaA_names hn a u, ho⟩

/-! ### What the reducer keeps -/

/-- The states of the reducer. -/
structure StOk (fr : ℕ) (st : RState (ZMod p)) : Prop where
  good : GoodC st.consts
  frame : fr ≤ st.latest
  dom : ∀ x, st.latest < frameOf x → st.consts x = none

/-- Calls of embedded functions which the program has. -/
def CallOf (P : Program (ZMod p)) (s : TStmt (ZMod p)) : Prop := ∀ a f g args, s = .embed a f g args → a.ConstantIndices ∧ ∃ key ns ts t, P key ns ts t = some (.flat f g)

/-- What is known about emitted statements. -/
structure Emits (P : Program (ZMod p)) (t : CType) (fr : ℕ) (st st' : RState (ZMod p)) (ss : List (TStmt (ZMod p))) : Prop where
  ok : StOk fr st'
  le : st.latest ≤ st'.latest
  wt : ∀ s ∈ ss, s.Wt t ∧ s.ArgsTyped
  assigns : ∀ s ∈ ss, ∀ x ∈ s.assigns, (frameOf x = fr ∧ nameOf x ≠ 0) ∨ (st.latest < frameOf x ∧ frameOf x ≤ st'.latest)
  consts : ∀ x, frameOf x ≠ fr → frameOf x ≤ st.latest → st'.consts x = st.consts x
  vars : ∀ s ∈ ss, ∀ x ∈ s.vars, Named st'.latest x
  fresh : ∀ seen, (∀ x ∈ seen, nameOf x = 0 → frameOf x ≤ st.latest) → FreshCalls seen ss
  call : ∀ s ∈ ss, CallOf P s

theorem Emits.nil {P : Program (ZMod p)} {t : CType} {fr : ℕ} {st : RState (ZMod p)} (h : StOk fr st) : Emits P t fr st st [] :=
  ⟨h, le_refl _, by simp, by simp, fun _ _ _ => rfl, by simp, fun _ _ => trivial, by simp⟩

theorem Emits.append {P : Program (ZMod p)} {t : CType} {fr : ℕ} {st st1 st2 : RState (ZMod p)} {ss ts : List (TStmt (ZMod p))} (h1 : Emits P t fr st st1 ss) (h2 : Emits P t fr st1 st2 ts) : Emits P t fr st st2 (ss ++ ts) where
  ok := h2.ok
  le := h1.le.trans h2.le
  wt := fun s hs => (List.mem_append.mp hs).elim (h1.wt s) (h2.wt s)
  assigns := fun s hs x hx => by
    rcases List.mem_append.mp hs with hs | hs
    · exact (h1.assigns s hs x hx).imp id fun h => ⟨h.1, h.2.trans h2.le⟩
    · exact (h2.assigns s hs x hx).imp id fun h => ⟨Nat.lt_of_le_of_lt h1.le h.1, h.2⟩
  consts := fun x hx hl => by rw [h2.consts x hx (hl.trans h1.le), h1.consts x hx hl]
  vars := fun s hs x hx => by
    rcases List.mem_append.mp hs with hs | hs
    · exact (h1.vars s hs x hx).mono h2.le
    · exact h2.vars s hs x hx
  fresh := fun seen hs => by
    refine freshCalls_append (h1.fresh seen hs) (h2.fresh _ fun x hx h0 => ?_)
    rcases List.mem_append.mp hx with hx | hx
    · obtain ⟨s, hs, hx⟩ := List.mem_flatMap.mp hx
      rcases h1.assigns s hs x hx with h | h
      · exact absurd h0 h.2
      · exact h.2
    · exact (hs x hx h0).trans h1.le
  call := fun s hs => (List.mem_append.mp hs).elim (h1.call s) (h2.call s)

/-- The states of the source and of the emitted statements. -/
structure SRel (K : Option (AVal (ZMod p)) → Option (AVal (ZMod p)) → Prop) (fr : ℕ) (st : RState (ZMod p)) (σ τ : TState p) : Prop where
  rho : ∃ ρ, EnvRel st.consts ρ τ.env ∧ Names st.vers fr ρ σ.env
  none : ∀ x, st.latest < frameOf x → τ.env x = none
  out : K σ.out τ.out

/-! ### Statements without calls -/

theorem propStmt_sliceOk {V : Vers} {fr : ℕ} {t : CType} {s : TStmt (ZMod p)} {r2 : List (TStmt (ZMod p))} (hC : GoodC C) (hw : s.Wt t) (hs : s.SliceOk V fr)
    (h : propStmt C s = .ok (C', r2)) : (∀ s' ∈ r2, s'.SliceOk V fr) ∧ (r2 = [] ∨ ∀ x ∈ s.assigns, C' x = none) := by
  cases s with
  | ret e =>
    simp only [propStmt] at h
    obtain ⟨e', h1, h⟩ := pbind_ok h
    cases h
    refine ⟨fun s' h' => ?_, .inr fun x hx => by simp [TStmt.assigns] at hx⟩
    simp only [List.mem_singleton] at h'
    subst h'
    exact SliceOk.prop hs hC hw.2 h1
  | assertion e err =>
    simp only [propStmt] at h
    obtain ⟨e', h1, h⟩ := pbind_ok h
    split at h
    · cases h
    · cases h; exact ⟨by simp, .inl rfl⟩
    · cases h
      refine ⟨fun s' h' => ?_, .inr fun x hx => by simp [TStmt.assigns] at hx⟩
      simp only [List.mem_singleton] at h'
      subst h'
      exact SliceOk.prop hs hC hw.2 h1
  | log es =>
    simp only [propStmt] at h
    obtain ⟨e', h1, h⟩ := pbind_ok h
    cases h
    refine ⟨fun s' h' => ?_, .inr fun x hx => by simp [TStmt.assigns] at hx⟩
    simp only [List.mem_singleton] at h'
    subst h'
    have : ∀ {es es' : List (TExpr (ZMod p))}, WtL es → (∀ e ∈ es, SliceOk V fr e) → propL C es = .ok es' → ∀ e ∈ es', SliceOk V fr e := by
      intro es
      induction es with
      | nil => intro es' _ _ h; simp only [propL] at h; cases h; simp
      | cons e es ih =>
        intro es' w hs h
        simp only [propL] at h
        obtain ⟨a, h1, h⟩ := pbind_ok h
        obtain ⟨b, h2, h⟩ := pbind_ok h
        cases h
        intro x hx
        simp only [List.mem_cons] at hx
        rcases hx with rfl | hx
        · exact SliceOk.prop (hs e (by simp)) hC w.1 h1
        · exact ih w.2 (fun e he => hs e (by simp [he])) h2 x hx
    exact this hw hs h1
  | definition a e =>
    simp only [propStmt] at h
    obtain ⟨a', h1, h⟩ := pbind_ok h
    obtain ⟨e', h2, h⟩ := pbind_ok h
    obtain ⟨hty, h⟩ := propDef_inv h
    have te := propT_typed hC e e' h2 hw.2.2
    obtain ⟨-, -, hr, -⟩ := propA_typed hC h1 hw.2.1
    have inv : invalidate C a' (.definition a' e') = .ok (C', r2) → (∀ s' ∈ r2, s'.SliceOk V fr) ∧ (r2 = [] ∨ ∀ x ∈ (TStmt.definition a e).assigns, C' x = none) := fun h => by
      obtain ⟨rfl, pre, rfl, -, hp⟩ := invalidate_inv (O := Oracle.any p Unit) h
      refine ⟨fun s' hs' => ?_, .inr fun x hx => ?_⟩
      · rcases List.mem_append.mp hs' with hs' | hs'
        · rcases hp with rfl | ⟨c, k1, k2, rfl⟩
          · simp at hs'
          · simp only [List.mem_singleton] at hs'
            subst hs'
            exact ⟨by simp [TAssignee.indices, varsL], .inl (canon_noSlice (hC _ _ k1).canon)⟩
        · simp only [List.mem_singleton] at hs'
          subst hs'
          exact ⟨fun x hx => hs.1 x (propA_vars hC h1 hw.2.1 x hx), SliceOk.prop hs.2 hC hw.2.2 h2⟩
      · simp only [TStmt.assigns, List.mem_singleton] at hx
        subst hx
        simp only [Consts.remove, hr, if_true]
    rcases h with h | h
    · rcases assignConst_inv hC te.2.1 hty h with ⟨c, rfl, -⟩ | h
      · exact ⟨by simp, .inl rfl⟩
      · exact inv h
    · exact inv h
  | embed a f g args => exact hs.elim

theorem simple_emits {P : Program (ZMod p)} {k fr : ℕ} {st st' : RState (ZMod p)} {t : CType} {s : TStmt (ZMod p)} {ss : List (TStmt (ZMod p))} (hst : StOk fr st)
    (hw : (SStmt.simple s).Wt t) (h : reduceSimple k fr st s = .ok (st', ss)) : Emits P t fr st st' ss ∧ st'.latest = st.latest ∧ ∀ s ∈ ss, s.Pure := by
  simp only [reduceSimple] at h
  obtain ⟨⟨C1, r2⟩, h1, h⟩ := rbind_ok h
  obtain ⟨r2', h2, h⟩ := rbind_ok h
  obtain ⟨⟨C2, q⟩, h3, h⟩ := rbind_ok h
  cases h
  have h1 := liftP_ok h1
  obtain ⟨w1, w2, w3, w4⟩ := ssaS_wt st.vers fr hw
  have m1 := propStmt_mok hst.good w1 w2 h1
  obtain ⟨so, -⟩ := propStmt_sliceOk hst.good w1 w4 h1
  obtain ⟨kp, -⟩ := sliceStmts_ok (O := Oracle.any p Unit) m1.good (fun s hs => (m1.wt s hs).1) so h2
  have hw2 : ∀ s ∈ r2', s.Wt t ∧ s.ArgsTyped := fun s hs => by
    obtain ⟨s0, -, k⟩ := kp s hs
    exact k.wt
  have m2 := propMany_mok m1.good hw2 h3
  have hpu : ∀ s ∈ q, s.Pure := m2.pure fun s hs => by
    obtain ⟨s0, -, k⟩ := kp s hs
    exact k.pure
  have as2 : ∀ s ∈ r2', ∀ x ∈ s.assigns, frameOf x = fr ∧ nameOf x ≠ 0 := fun s' hs x hx => by
    obtain ⟨s1, k1, k2⟩ := kp s' hs
    obtain ⟨s0, k3, k4⟩ := m1.shape s1 k1
    simp only [List.mem_singleton] at k3
    subst k3
    exact ssaS_assigns st.vers fr s x (k4.assigns x (k2.assigns ▸ hx))
  have cons : ∀ x, frameOf x ≠ fr → C2 x = st.consts x := fun x hx => by
    rw [m2.consts x fun s hs hc => hx (as2 s hs x hc).1, m1.consts x fun s' hs hc => ?_]
    simp only [List.mem_singleton] at hs
    subst hs
    exact hx (ssaS_assigns st.vers fr s x hc).1
  refine ⟨⟨⟨m2.good, hst.frame, fun x hx => ?_⟩, le_refl _, m2.wt, fun s' hs x hx => .inl ?_, fun x hx _ => cons x hx, fun s' hs x hx => ?_, fun seen _ => freshCalls_pure hpu,
    fun s' hs a f g args he => ?_⟩, rfl, hpu⟩
  · show C2 x = none
    rw [cons x fun hc => by have := hst.frame; change st.latest < frameOf x at hx; omega]
    exact hst.dom x hx
  · obtain ⟨s1, k1, k2⟩ := m2.shape s' hs
    exact as2 s1 k1 x (k2.assigns x hx)
  · obtain ⟨s1, k1, k2⟩ := m2.shape s' hs
    obtain ⟨s2, k3, k4⟩ := kp s1 k1
    obtain ⟨s3, k5, k6⟩ := m1.shape s2 k3
    simp only [List.mem_singleton] at k5
    subst k5
    obtain ⟨g1, g2⟩ := ssaS_vars st.vers fr s x (k6.vars x (k4.vars x (k2.vars x hx)))
    exact ⟨g1 ▸ hst.frame, fun h => absurd h g2⟩
  · subst he
    exact (hpu _ hs).elim

theorem simple_sim {k fr : ℕ} {st st' : RState (ZMod p)} {t : CType} {s : TStmt (ZMod p)} {ss : List (TStmt (ZMod p))} (hst : StOk fr st)
    (hw : (SStmt.simple s).Wt t) (h : reduceSimple k fr st s = .ok (st', ss)) {K : Option (AVal (ZMod p)) → Option (AVal (ZMod p)) → Prop}
    (hK : (∀ v, K (some v) (some v)) ∨ (SStmt.simple s).NoRet) {σ τ : TState p} (hR : SRel K fr st σ τ) : RSim O A B τ (ExecT O σ s) ss (SRel K fr st') := by
  obtain ⟨em, hl, hpu⟩ := simple_emits (P := fun _ _ _ _ => none) hst hw h
  have sp : s.Pure := by
    cases s with
    | embed => simp only [SStmt.Wt] at hw
    | _ => trivial
  have swt : s.Wt t := by
    cases s with
    | embed => simp only [SStmt.Wt] at hw
    | definition => exact hw.1
    | ret | log | assertion => exact hw
  obtain ⟨⟨ρ, hE, hN⟩, hnone, hout⟩ := hR
  have hnone' : ∀ τ', ExecTs O τ ss (.ok τ') → ∀ x, st'.latest < frameOf x → τ'.env x = none := fun τ' hx x hf => by
    rw [hl] at hf
    rw [hx.frame fun s hs hc => ?_]
    · exact hnone x hf
    · have := hst.frame
      rcases em.assigns s hs x hc with h | h
      · omega
      · rw [hl] at h; omega
  simp only [reduceSimple] at h
  obtain ⟨⟨C1, r2⟩, h1, h⟩ := rbind_ok h
  obtain ⟨r2', h2, h⟩ := rbind_ok h
  obtain ⟨⟨C2, q⟩, h3, h⟩ := rbind_ok h
  cases h
  have h1 := liftP_ok h1
  obtain ⟨w1, w2, w3, w4⟩ := ssaS_wt st.vers fr hw
  have m1 := propStmt_mok hst.good w1 w2 h1
  obtain ⟨so, sn⟩ := propStmt_sliceOk hst.good w1 w4 h1
  obtain ⟨kp, kf⟩ := sliceStmts_ok (O := O) m1.good (fun s hs => (m1.wt s hs).1) so h2
  have hw2 : ∀ s ∈ r2', s.Wt t ∧ s.ArgsTyped := fun s hs => by
    obtain ⟨s0, -, k⟩ := kp s hs
    exact k.wt
  have st1 := propStmt_step (O := O) hst.good w1 w2 h1
  refine .of_pure hpu (ExecT.total_wt sp swt σ) (fun σ' hx => ?_) (fun hx => ?_)
  · obtain ⟨τρ, x1, x2, x3⟩ := ssaS_exec hx sp hN hK hout
    rcases sn with rfl | sn
    · obtain ⟨τ1, y1, y2⟩ := st1.fwd w3.only ⟨ρ, τ.out⟩ τ τρ ⟨rfl, hE⟩ x1
      simp only [sliceStmts] at h2
      cases h2
      simp only [propMany] at h3
      cases h3
      refine ⟨τ1, y1, ⟨τρ.env, y2.env, x2⟩, hnone' _ y1, ?_⟩
      rw [y2.out]
      exact x3
    · classical
      have r1 : RelC st.consts ⟨ρ, τ.out⟩ ⟨fun y => if y ∈ (ssaStmt st.vers fr s).2.assigns then τ.env y else ρ y, τ.out⟩ := by
        refine ⟨rfl, fun y hy => ?_, hE.const⟩
        simp only
        split
        · exact hE.same y hy
        · rfl
      have rb : RelC C1 (⟨fun y => if y ∈ (ssaStmt st.vers fr s).2.assigns then τ.env y else ρ y, τ.out⟩ : TState p) τ := by
        refine ⟨rfl, fun y hy => ?_, fun y c hy => ?_⟩
        · simp only
          split
          · rfl
          · rename_i hn
            exact hE.same y (by rw [← m1.consts y (by simpa using hn)]; exact hy)
        · have hn : y ∉ (ssaStmt st.vers fr s).2.assigns := fun hc => by rw [sn y hc] at hy; cases hy
          simp only [if_neg hn]
          exact hE.const y c (by rw [← m1.consts y (by simpa using hn)]; exact hy)
      obtain ⟨τ1, y1, y2⟩ := st1.fwd w3.only _ _ _ r1 x1
      have as : ∀ s' ∈ r2, ∀ x ∈ s'.assigns, x ∈ (ssaStmt st.vers fr s).2.assigns := fun s' hs x hx => by
        obtain ⟨s0, k3, k4⟩ := m1.shape s' hs
        simp only [List.mem_singleton] at k3
        subst k3
        exact k4.assigns x hx
      have y3 := kf (fun s' hs x hx => sn x (as s' hs x hx)) _ _ rb.env.self y1
      obtain ⟨τ', z1, z2⟩ := propMany_fwd m1.good hw2 (fun s hs => by
        obtain ⟨s0, -, k⟩ := kp s hs
        exact k.pure) h3 _ _ _ rb y3
      have he : τ1.env = τρ.env := by
        funext y
        by_cases hy : y ∈ (ssaStmt st.vers fr s).2.assigns
        · exact y2.env.same y (sn y hy)
        · rw [y1.frame fun s hs hc => hy (as s hs y hc), x1.frame hy]
          simp only [if_neg hy]
      refine ⟨τ', z1, ⟨τ1.env, z2.env, by rw [he]; exact x2⟩, hnone' _ z1, ?_⟩
      rw [z2.out, y2.out]
      exact x3
  · have hx' : ∃ e err, s = .assertion e err ∧ evalT σ.env e = .ok (.bool false) := by
      cases hx with
      | retFault g => exact absurd g (na_evalT _ _)
      | rhsFault g => exact absurd g (na_evalT _ _)
      | lhsFault _ g => exact absurd g (na_setA _ _ _)
      | argsFault g => exact absurd g (na_evalL _ _)
      | embedFault _ g => exact absurd rfl (na_embed g)
      | embedLhsFault _ _ _ _ g => exact absurd g (na_setA _ _ _)
      | assertFault g => exact absurd g (na_evalT _ _)
      | logFault g => exact absurd g (na_evalL _ _)
      | assertFailed g => exact ⟨_, _, rfl, g⟩
    obtain ⟨e, err, rfl, hv⟩ := hx'
    simp only [ssaStmt] at h1 h2 h3 w1 w4
    simp only [propStmt] at h1
    obtain ⟨e1, k1, h1⟩ := pbind_ok h1
    have v1 : evalT ρ (e.ren (ssaName st.vers fr)) = .ok (.bool false) := by rw [eval_renT, show (fun x => ρ (ssaName st.vers fr x)) = σ.env from funext hN]; exact hv
    have v2 := propT_eval hst.good hE.self w1.2 k1 v1
    have te := propT_typed hst.good _ _ k1 w1.2
    split at h1
    · cases h1
    · rename_i hb
      rw [litB_some hb] at v2
      simp only [evalT] at v2
      cases v2
    · cases h1
      simp only [sliceStmts, sliceStmt] at h2
      obtain ⟨s2, k2, h2⟩ := rbind_ok h2
      obtain ⟨e2, k5, k3⟩ := rbind_ok k2
      cases k3
      cases h2
      have ke := sliceT_ok hst.good te.2.1 (SliceOk.prop w4 hst.good w1.2 k1) k5
      have v3 := ke.val _ _ hE.self v2
      simp only [propMany, propStmt] at h3
      obtain ⟨⟨C3, q3⟩, k3, h3⟩ := rbind_ok h3
      have k3 := liftP_ok k3
      obtain ⟨e3, k4, k3⟩ := pbind_ok k3
      have v4 := propT_eval hst.good hE ke.typ.2.1 k4 v3
      cases h3
      split at k3
      · cases k3
      · rename_i hb
        rw [litB_some hb] at v4
        simp only [evalT] at v4
        cases v4
      · cases k3
        exact ⟨[], e3, err, [], τ, rfl, .nil, v4⟩

end Zok.Typed
