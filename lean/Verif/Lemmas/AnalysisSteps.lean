import Verif.Lemmas.WriteOrder
import Verif.Lemmas.BooleanArrayStmt
import Verif.Spec.InOrder

/-
The passes over typed programs behind constant propagation keep what the following ones need.
-/

set_option linter.unusedSectionVars false
set_option linter.unusedSimpArgs false

namespace Zok.Typed
open Abi
variable {p : ℕ} {Z : Type} [Fact p.Prime] {nm : SId → ZId} {cid : ℕ → TId} {ord : List (TStmt (ZMod p)) → List (TStmt (ZMod p))}

theorem TFun.mem_vars {f : TFun (ZMod p)} {s : TStmt (ZMod p)} (hs : s ∈ f.body) {x : TId} (hx : x ∈ s.vars) : x ∈ f.vars := by
  simp only [TFun.vars, List.mem_append, List.mem_flatMap]
  exact .inr ⟨s, hs, hx⟩

/-! ### Comparisons of boolean arrays -/

theorem packStmt_inOrder {s : TStmt (ZMod p)} (h : s.InOrder) : (packStmt s).InOrder := by
  cases s with
  | definition a e =>
    rcases h with h | ⟨h1, h2⟩
    · exact .inl (by rw [packA_root]; exact fun hx => h (packE_vars e _ hx))
    · exact .inr (by rw [packA_constant h1]; exact ⟨h1, h2⟩)
  | _ => trivial

theorem packStmt_oracleFree {s : TStmt (ZMod p)} (h : s.OracleFree) : (packStmt s).OracleFree := by
  cases s <;> exact h

/-! ### Variable writes -/

/-- A statement behind the pass: an unchanged one, a range check, or a definition of a whole variable. -/
theorem writeStmts_mem (hord : Enumerates ord) {body b : List (TStmt (ZMod p))} (h : writeStmts ord body = some b) {s : TStmt (ZMod p)} (hs : s ∈ b) :
    (s ∈ body ∧ ∀ a e, s = .definition a e → a.ConstantIndices) ∨ ∃ a e, .definition a e ∈ body ∧ ¬ a.ConstantIndices ∧
      (s ∈ rangeChecks (linear a).2 a.rootTy ∨
        ∃ e', chooseMany (linear a).2 (.ident a.root a.rootTy) e = some e' ∧ s = .definition (.ident a.root a.rootTy) e') := by
  obtain ⟨tss, rfl, h2⟩ := writeStmts_blocks h
  obtain ⟨ss, h3, h4⟩ := List.mem_flatten.1 hs
  refine forall₂_right (P := fun ss => s ∈ ss → _) (forall₂_mem h2) ?_ ss h3 h4
  intro s0 ss ⟨h, hb, _⟩ hm
  cases s0 with
  | definition a e =>
    simp only [writeStmt] at h
    split at h
    · rename_i hc
      cases h
      rw [List.mem_singleton] at hm
      subst hm
      exact .inl ⟨hb, fun a' e' he => by cases he; exact isConstant_iff.1 hc⟩
    · rename_i hc
      split at h
      · rename_i e' he'
        cases h
        rw [List.mem_append, hord] at hm
        rw [linear_root] at hm he'
        refine .inr ⟨a, e, hb, fun hcon => hc (isConstant_iff.2 hcon), ?_⟩
        rcases hm with hm | hm
        · exact .inl hm
        · exact .inr ⟨e', he', by simpa using hm⟩
      · cases h
  | _ => simp only [writeStmt] at h; cases h; rw [List.mem_singleton] at hm; subst hm; exact .inl ⟨hb, fun _ _ he => by cases he⟩

theorem writeStmts_constantCalls (hord : Enumerates ord) {body b : List (TStmt (ZMod p))} (h : writeStmts ord body = some b) (hc : ConstantCalls body) :
    ConstantCalls b := by
  intro a f g args hs
  rcases writeStmts_mem hord h hs with ⟨h1, _⟩ | ⟨a', e', _, _, h1 | ⟨_, _, h1⟩⟩
  · exact hc a f g args h1
  · obtain ⟨_, _, _, h2⟩ := rangeChecks_shape h1; cases h2
  · cases h1

theorem writeStmts_oracleFree (hord : Enumerates ord) {body b : List (TStmt (ZMod p))} (h : writeStmts ord body = some b) (hc : ∀ s ∈ body, s.OracleFree) :
    ∀ s ∈ b, s.OracleFree := by
  intro s hs
  rcases writeStmts_mem hord h hs with ⟨h1, _⟩ | ⟨a', e', _, _, h1 | ⟨_, _, h1⟩⟩
  · exact hc s h1
  · obtain ⟨_, _, _, rfl⟩ := rangeChecks_shape h1; trivial
  · rw [h1]; trivial

theorem mem_varsL {es : List (TExpr (ZMod p))} {x : TId} : x ∈ varsL es ↔ ∃ e ∈ es, x ∈ e.vars := by
  induction es with
  | nil => simp [varsL]
  | cons e es ih => simp [varsL, ih]

/-- The variables of the new right side. -/
theorem chooseMany_vars {new : TExpr (ZMod p)} : ∀ {as : List (Access (ZMod p))} {base e : TExpr (ZMod p)}, chooseMany as base new = some e →
    ∀ x ∈ e.vars, x ∈ base.vars ∨ x ∈ new.vars ∨ ∃ i, .select i ∈ as ∧ x ∈ i.vars
  | [], base, e, h, x, hx => by simp only [chooseMany] at h; cases h; exact .inr (.inl hx)
  | .select i :: as, base, e, h, x, hx => by
    simp only [chooseMany] at h
    split at h
    · obtain ⟨es, hes, rfl⟩ := Option.map_eq_some_iff.1 h
      replace hx : x ∈ varsS es := hx
      have hf := mapM_forall₂ hes
      generalize List.range _ = ks at hf
      clear hes h
      induction hf with
      | nil => simp [varsS] at hx
      | @cons k s ks es g1 g2 ih =>
        obtain ⟨e, he, rfl⟩ := Option.map_eq_some_iff.1 g1
        simp only [varsS, TExpr.vars, List.mem_append, List.append_nil, List.nil_append] at hx
        rcases hx with ((hx | hx) | hx) | hx
        · exact .inr (.inr ⟨i, by simp, hx⟩)
        · rcases chooseMany_vars he x hx with h1 | h1 | ⟨j, h1, h2⟩
          · simp only [TExpr.vars, List.mem_append, List.not_mem_nil, or_false] at h1; exact .inl h1
          · exact .inr (.inl h1)
          · exact .inr (.inr ⟨j, by simp [h1], h2⟩)
        · exact .inl hx
        · exact ih hx
    · cases h
  | .member m :: as, base, e, h, x, hx => by
    simp only [chooseMany] at h
    split at h
    · obtain ⟨es, hes, rfl⟩ := Option.map_eq_some_iff.1 h
      simp only [TExpr.vars] at hx
      obtain ⟨e, h1, h2⟩ := mem_varsL.1 hx
      obtain ⟨kt, h3⟩ := forall₂_right (P := fun e => ∃ kt : Str × CType, _) (mapM_forall₂ hes) (fun x y h => ⟨x, h⟩) e h1
      split at h3
      · rcases chooseMany_vars h3 x h2 with h1 | h1 | ⟨j, h1, h2⟩
        · exact .inl h1
        · exact .inr (.inl h1)
        · exact .inr (.inr ⟨j, by simp [h1], h2⟩)
      · cases h3; exact .inl h2
    · cases h
  | .element m :: as, base, e, h, x, hx => by
    simp only [chooseMany] at h
    split at h
    · obtain ⟨es, hes, rfl⟩ := Option.map_eq_some_iff.1 h
      simp only [TExpr.vars] at hx
      obtain ⟨e, h1, h2⟩ := mem_varsL.1 hx
      obtain ⟨kt, h3⟩ := forall₂_right (P := fun e => ∃ kt : CType × ℕ, _) (mapM_forall₂ hes) (fun x y h => ⟨x, h⟩) e h1
      split at h3
      · rcases chooseMany_vars h3 x h2 with h1 | h1 | ⟨j, h1, h2⟩
        · exact .inl h1
        · exact .inr (.inl h1)
        · exact .inr (.inr ⟨j, by simp [h1], h2⟩)
      · cases h3; exact .inl h2
    · cases h

theorem removeWrites_vars (hord : Enumerates ord) {f g : TFun (ZMod p)} (h : removeWrites ord f = some g) : ∀ x ∈ g.vars, x ∈ f.vars := by
  obtain ⟨b, h1, rfl⟩ := Option.map_eq_some_iff.1 h
  intro x hx
  simp only [TFun.vars, List.mem_append, List.mem_flatMap] at hx
  rcases hx with hx | ⟨s, hs, hx⟩
  · simp only [TFun.vars, List.mem_append]; exact .inl hx
  · rcases writeStmts_mem hord h1 hs with ⟨h2, _⟩ | ⟨a, e, h2, _, h3⟩
    · exact TFun.mem_vars h2 hx
    · have hidx : ∀ i, Access.select i ∈ (linear a).2 → x ∈ i.vars → x ∈ f.vars := fun i hi hx =>
        TFun.mem_vars h2 (by
          simp only [TStmt.vars, TAssignee.vars, List.mem_append, List.mem_cons]
          exact .inr (.inr (mem_varsL.2 ⟨i, linear_indices.1 hi, hx⟩)))
      have hroot : a.root ∈ f.vars := TFun.mem_vars h2 (by simp [TStmt.vars, TAssignee.vars])
      rcases h3 with h3 | ⟨e', h3, rfl⟩
      · obtain ⟨i, n, h4, rfl⟩ := rangeChecks_shape h3
        simp only [TStmt.vars, TExpr.vars, List.append_nil] at hx
        exact hidx i h4 hx
      · simp only [TStmt.vars, TAssignee.vars, TAssignee.root, TAssignee.indices, varsL, List.mem_append, List.mem_singleton] at hx
        rcases hx with hx | rfl
        · rcases chooseMany_vars h3 x hx with h4 | h4 | ⟨i, h4, h5⟩
          · simp only [TExpr.vars, List.mem_singleton] at h4; rw [h4]; exact hroot
          · exact TFun.mem_vars h2 (by simp [TStmt.vars, h4])
          · exact hidx i h4 h5
        · exact hroot

/-! ### Conditions -/

/-- A statement behind the pass: the definition of a condition, or one of the statements with its conditions replaced. -/
theorem redefStmts_mem {t : CType} : ∀ {ss : List (TStmt (ZMod p))} {n : ℕ}, (∀ s ∈ ss, s.Wt t) → ∀ {s' : TStmt (ZMod p)}, s' ∈ redefStmts cid n ss →
    (∃ k c, s' = .definition (.ident (cid k) .bool) c) ∨ ∃ s ∈ ss, ∃ k, s' = (redefStmt cid k s).2
  | [], n, _, s', h => by simp [redefStmts] at h
  | s :: ss, n, hw, s', h => by
    simp only [redefStmts, List.mem_append, List.mem_cons] at h
    rcases h with h | rfl | h
    · obtain ⟨k, c, h1⟩ := (redefStmt_wt (cid := cid) s n (hw s (by simp))).1.mem h
      exact .inl ⟨k, c, h1.2.2.1⟩
    · exact .inr ⟨s, by simp, n, rfl⟩
    · rcases redefStmts_mem (fun s hs => hw s (by simp [hs])) h with h | ⟨s0, h1, h2⟩
      · exact .inl h
      · exact .inr ⟨s0, by simp [h1], h2⟩

theorem redefStmts_oracleFree {t : CType} {ss : List (TStmt (ZMod p))} (hw : ∀ s ∈ ss, s.Wt t) (h : ∀ s ∈ ss, s.OracleFree) :
    ∀ s ∈ redefStmts cid 0 ss, s.OracleFree := by
  intro s' hs'
  rcases redefStmts_mem hw hs' with ⟨k, c, rfl⟩ | ⟨s, h1, k, rfl⟩
  · trivial
  · have := h s h1
    cases s <;> exact this

theorem flatStmts_mem {ss : List (TStmt (ZMod p))} {zs : List (ZStmt (ZMod p) Z)} (h : flatStmts nm ss = some zs) : ∀ s ∈ ss, ∃ z, flatStmt (Z := Z) nm s = some z := by
  induction ss generalizing zs with
  | nil => simp
  | cons s ss ih =>
    simp only [flatStmts] at h
    split at h
    · rename_i as bs h1 h2
      intro s' hs'
      rcases List.mem_cons.1 hs' with rfl | hs'
      · exact ⟨as, h1⟩
      · exact ih h2 s' hs'
    · cases h

/-- The statements behind all these passes assign component by component. -/
theorem analysed_simultaneous (hnm : Function.Injective nm) (hc : Function.Injective cid) (hord : Enumerates ord) {f g : TFun (ZMod p)} (hw : f.Wt)
    (hn : NoCid cid f.vars) (ho : ∀ s ∈ f.body, s.InOrder) (h : removeWrites ord f = some g) {z : ZFun (ZMod p) Z} (hz : flatFun nm (redefine cid g) = some z) :
    ∀ s ∈ (redefine cid g).body, s.Simultaneous nm := by
  obtain ⟨g', h0, gw⟩ := removeWrites_wt hord hw
  rw [h] at h0; cases h0
  have hv := removeWrites_vars hord h
  obtain ⟨b, h1, rfl⟩ := Option.map_eq_some_iff.1 h
  intro s' hs'
  obtain ⟨zs', hzs⟩ := flatStmts_mem (flatFun_some hz).2.1 s' hs'
  rcases redefStmts_mem gw.body hs' with ⟨k, c, rfl⟩ | ⟨s, h2, k, rfl⟩
  · exact .inr (.inl ⟨.bool, 1, rfl, by simp [primCount], le_refl _⟩)
  · cases s with
    | definition a e =>
      have hva : ∀ x ∈ (TStmt.definition a e).vars, ∀ k, x ≠ cid k := fun x hx => hn x (hv x (TFun.mem_vars h2 hx))
      have hroot : ∀ k, a.root ≠ cid k := hva a.root (by simp [TStmt.vars, TAssignee.vars])
      have hev : NoCid cid e.vars := fun x hx => hva x (by simp [TStmt.vars, hx])
      have hnot : a.root ∉ e.vars → a.root ∉ (redefE cid k e).1.vars := by
        intro h3 h4
        rcases (redefE_sim (O := Oracle.any p Unit) hc e k hev).vars _ h4 with h5 | ⟨j, _, _, h5⟩
        · exact h3 h5
        · exact hroot j h5
      simp only [redefStmt, flatStmt] at hzs ⊢
      rcases writeStmts_mem hord h1 h2 with ⟨h3, _⟩ | ⟨a0, e0, h3, h4, h5 | ⟨e', h5, h6⟩⟩
      · rcases ho _ h3 with h4 | ⟨h4, h5⟩
        · exact .inl (by rw [redefA_root]; exact hnot h4)
        · exact .inr (.inl (by rw [redefA_ty]; exact h5))
      · obtain ⟨_, _, _, h6⟩ := rangeChecks_shape h5; cases h6
      · cases h6
        have hw0 := hw.body _ h3
        have ho0 : a0.root ∉ e0.vars := by
          rcases ho _ h3 with h6 | h6
          · exact h6
          · exact absurd h6.1 h4
        simp only [redefA]
        split at hzs
        · rename_i as es _ hes
          refine written_simultaneous hnm hc hroot hw0.2.2 ?_ ho0 (linear_wt hw0.2.1).2 ?_ h5 hes
          · exact fun x hx => hn x (TFun.mem_vars h3 (by simp [TStmt.vars, hx]))
          · have := linear_ty a0
            rw [linear_root] at this
            rw [this]
            exact hw0.1
        · cases hzs
    | _ => trivial

end Zok.Typed
