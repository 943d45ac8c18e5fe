import Verif.Lemmas.DceSim

/-
Lemmas: the elimination of dead code simulates the program, statements.
-/

set_option linter.unusedSectionVars false
set_option linter.unusedSimpArgs false

namespace Zok.Dce
variable {p : ℕ} {Z : Type} [Fact p.Prime] {O : Oracle p Z} {hd : Z → Used → Z × Used} {hm : Z → List ZId} {σ τ : ZState p}

theorem execL_append {σ : ZState p} {as bs : List (ZStmt (ZMod p) Z)} {r : Except Fault (ZState p)} :
    ExecL O σ (as ++ bs) r ↔ (∃ e, r = .error e ∧ ExecL O σ as (.error e)) ∨ ∃ σ', ExecL O σ as (.ok σ') ∧ ExecL O σ' bs r := by
  induction as generalizing σ with
  | nil =>
    constructor
    · intro h; exact Or.inr ⟨σ, .nil, h⟩
    · rintro (⟨e, rfl, h⟩ | ⟨σ', h1, h2⟩)
      · cases h
      · cases h1; exact h2
  | cons a as ih =>
    constructor
    · intro h
      cases h with
      | fault h => exact Or.inl ⟨_, rfl, .fault h⟩
      | cons h1 h2 =>
        rcases ih.1 h2 with ⟨e, rfl, h⟩ | ⟨σ', h3, h4⟩
        · exact Or.inl ⟨e, rfl, .cons h1 h⟩
        · exact Or.inr ⟨σ', .cons h1 h3, h4⟩
    · rintro (⟨e, rfl, h⟩ | ⟨σ', h1, h2⟩)
      · cases h with
        | fault h => exact .fault h
        | cons h1 h2 => exact .cons h1 (ih.2 (Or.inl ⟨e, rfl, h2⟩))
      · cases h1 with
        | cons h1 h3 => exact .cons h1 (ih.2 (Or.inr ⟨σ', h3, h2⟩))

theorem execL_single {σ : ZState p} {s : ZStmt (ZMod p) Z} {r : Except Fault (ZState p)} : ExecL O σ [s] r ↔ Exec O σ s r := by
  constructor
  · intro h
    cases h with
    | fault h => exact h
    | cons h1 h2 => cases h2; exact h1
  · intro h
    cases r with
    | error e => exact .fault h
    | ok σ' => exact .cons h .nil

theorem def_total (σ : ZState p) (x : ZId) (e : ZExpr (ZMod p)) : (∃ v, Exec O σ (.definition x e) (.ok (σ.set x v))) ∨
    ∃ f, Exec O σ (.definition x e) (.error f) := by
  cases h : evalZ σ.env e with
  | ok v => exact Or.inl ⟨v, .definition h⟩
  | error f => exact Or.inr ⟨f, .definitionFault h⟩

theorem multi_total (σ : ZState p) {xs : List ZId} {embed : Embed} {g : List ℕ} {args : List (ZExpr (ZMod p))} (hc : CallOk O xs embed g args) :
    (∃ vs, Exec O σ (.multiDef xs embed g args) (.ok (σ.setAll xs vs))) ∨ ∃ f, Exec O σ (.multiDef xs embed g args) (.error f) := by
  cases h : evalZs σ.env args with
  | error f => exact Or.inr ⟨f, .argsFault h⟩
  | ok vs =>
    rcases embed_total hc h with ⟨rs, h1, h2⟩ | h1
    · exact Or.inl ⟨rs, .multiDef h h1 h2⟩
    · exact Or.inr ⟨_, .embedFault h h1⟩

theorem Agree.seq {W : ZId → Prop} {xs ys : List ZId} {u v : Used} (h : Agree (Left (Left W xs v) ys u) σ τ) (hg : ∀ x, u x = true → v x = true) :
    Agree (Left W (xs ++ ys) u) σ τ :=
  h.mono fun _ hx => ⟨⟨hx.1, fun h' => hg _ (hx.2 (List.mem_append_left _ h'))⟩, fun h' => hx.2 (List.mem_append_right _ h')⟩

section
variable (hk : HintsKept O hd)
include hk

mutual
/-- Every successful execution of a statement is one of what is left of it. -/
theorem fwdStmt : ∀ (s : ZStmt (ZMod p) Z) (u : Used) {W : ZId → Prop} {σ τ σ' : ZState p}, s.BranchesApart hm → s.ArgsUsed hd →
    (∀ x ∈ s.mentions hm, (dceStmt hd s u).2 x = true → W x) → Agree W σ τ →
    Exec O σ s (.ok σ') → ∃ τ', ExecL O τ (dceStmt hd s u).1 (.ok τ') ∧ Agree (Left W s.assigns u) σ' τ'
  | .ret es, u, W, σ, τ, σ', _, _, hW, h, hr => by
    cases hr with
    | ret h1 =>
      rw [evZs es (fun x hx => h.env x (hW x (by simp [ZStmt.mentions, hx]) (names_iff.2 (Or.inl hx))))] at h1
      exact ⟨_, execL_single.2 (.ret h1), ⟨h.left.env, rfl⟩⟩
  | .definition x e, u, W, σ, τ, σ', _, _, hW, h, hr => by
    rw [dce_definition] at hW ⊢
    cases hr with
    | definition h1 =>
    by_cases hu : u x = true
    · rw [if_pos hu] at hW ⊢
      rw [evZ e (fun y hy => h.env y (hW y (by simp [ZStmt.mentions, hy]) (names_iff.2 (Or.inr (names_iff.2 (Or.inl hy))))))] at h1
      exact ⟨_, execL_single.2 (.definition h1), (h.set _ _).left⟩
    · rw [if_neg hu] at hW ⊢
      exact ⟨τ, .nil, h.left.drop (fun hx => hu (hx.2 (by simp [ZStmt.assigns]))) _⟩
  | .ifElse c t e, u, W, σ, τ, σ', hF, hU, hW, h, hr => by
    have hWt : ∀ x ∈ ZStmt.mentionsL hm t, (dceStmts hd t (u.names (idsB c))).2 x = true → W x :=
      fun x hm hx => hW x (by simp [ZStmt.mentions, hm]) (dceStmts_grows hk e _ x hx)
    have hWc : ∀ x ∈ idsB c, W x := fun x hx => hW x (by simp [ZStmt.mentions, hx])
      (dceStmts_grows hk e _ x (dceStmts_grows hk t _ x (names_iff.2 (Or.inl hx))))
    have hWe : ∀ x ∈ ZStmt.mentionsL hm e, (dceStmts hd e (dceStmts hd t (u.names (idsB c))).2).2 x = true →
        Left W (ZStmt.assignsL t) (u.names (idsB c)) x :=
      fun x hm hx => ⟨hW x (by simp [ZStmt.mentions, hm]) hx, fun hx' => absurd hm (hF.2.2 x hx')⟩
    have hLe : ∀ x, Left W (ZStmt.assigns (.ifElse c t e)) u x →
        Left (Left W (ZStmt.assignsL t) (u.names (idsB c))) (ZStmt.assignsL e) (dceStmts hd t (u.names (idsB c))).2 x :=
      fun x hx => ⟨⟨hx.1, fun h' => names_iff.2 (Or.inr (hx.2 (by simp [ZStmt.assigns, h'])))⟩,
        fun h' => dceStmts_grows hk t _ x (names_iff.2 (Or.inr (hx.2 (by simp [ZStmt.assigns, h']))))⟩
    cases hr with
    | ifElse h1 h2 h3 =>
      obtain ⟨τ1, h4, h5⟩ := fwdStmts t (u.names (idsB c)) hF.1 hU.1 hWt h h2
      obtain ⟨τ2, h6, h7⟩ := fwdStmts e _ hF.2.1 hU.2 hWe h5 h3
      rw [evB c (fun x hx => h.env x (hWc x hx))] at h1
      exact ⟨τ2, execL_single.2 (.ifElse h1 h4 h6), h7.mono hLe⟩
  | .assertion e err, u, W, σ, τ, σ', _, _, hW, h, hr => by
    cases hr with
    | assertOk h1 =>
      rw [evB e (fun x hx => h.env x (hW x (by simp [ZStmt.mentions, hx]) (names_iff.2 (Or.inl hx))))] at h1
      exact ⟨τ, execL_single.2 (.assertOk h1), h.left⟩
  | .multiDef xs embed g args, u, W, σ, τ, σ', _, _, hW, h, hr => by
    rw [dce_multiDef] at hW ⊢
    cases hr with
    | multiDef h1 h2 h3 =>
    by_cases hb : (u.removeAny xs).1 = true
    · rw [if_pos hb] at hW ⊢
      rw [evZs args (fun y hy => h.env y (hW y (by simp [ZStmt.mentions, hy]) (names_iff.2 (Or.inr (names_iff.2 (Or.inl hy))))))] at h1
      exact ⟨_, execL_single.2 (.multiDef h1 h2 h3), (h.setAll _ _).left⟩
    · rw [if_neg hb] at hW ⊢
      obtain ⟨h4, h5⟩ := removeAny_false (by simpa using hb)
      refine ⟨τ, .nil, h.left.dropAll (fun x hx hw => ?_) _⟩
      have := hw.2 hx
      rw [h4 x hx] at this
      cases this
  | .log es, u, W, σ, τ, σ', _, _, hW, h, hr => by
    cases hr with
    | log h1 =>
      rw [evZs _ (fun x hx => h.env x (hW x (by simp [ZStmt.mentions, hx]) (names_iff.2 (Or.inl hx))))] at h1
      exact ⟨τ, execL_single.2 (.log h1), h.left⟩
  | .assembly ss, u, W, σ, τ, σ', _, hU, hW, h, hr => by
    cases hr with
    | assembly h1 =>
      rcases asms_fwd hk hU hW h h1 with ⟨e, he, _⟩ | ⟨σ1, τ1, he, h2, h3⟩
      · cases he
      · cases he
        exact ⟨τ1, execL_single.2 (.assembly h2), h3.left⟩
/-- Every successful execution of a list of statements is one of what is left of it. -/
theorem fwdStmts : ∀ (ss : List (ZStmt (ZMod p) Z)) (u : Used) {W : ZId → Prop} {σ τ σ' : ZState p}, ZStmt.BranchesApartL hm ss → ZStmt.ArgsUsedL hd ss →
    (∀ x ∈ ZStmt.mentionsL hm ss, (dceStmts hd ss u).2 x = true → W x) → Agree W σ τ →
    ExecL O σ ss (.ok σ') → ∃ τ', ExecL O τ (dceStmts hd ss u).1 (.ok τ') ∧ Agree (Left W (ZStmt.assignsL ss) u) σ' τ'
  | [], u, W, σ, τ, σ', _, _, _, h, hr => by
    cases hr
    exact ⟨τ, .nil, h.left⟩
  | s :: ss, u, W, σ, τ, σ', hF, hU, hW, h, hr => by
    have hW1 : ∀ x ∈ s.mentions hm, (dceStmt hd s (dceStmts hd ss u).2).2 x = true → W x :=
      fun x hm hx => hW x (by simp [ZStmt.mentionsL, hm]) hx
    have hWs : ∀ x ∈ ZStmt.mentionsL hm ss, (dceStmts hd ss u).2 x = true → Left W s.assigns (dceStmts hd ss u).2 x :=
      fun x hm hx => ⟨hW x (by simp [ZStmt.mentionsL, hm]) (dceStmt_grows hk s _ x hx), fun _ => hx⟩
    cases hr with
    | cons h1 h2 =>
      obtain ⟨τ1, h3, h4⟩ := fwdStmt s (dceStmts hd ss u).2 hF.1 hU.1 hW1 h h1
      obtain ⟨τ2, h5, h6⟩ := fwdStmts ss u hF.2 hU.2 hWs h4 h2
      exact ⟨τ2, execL_append.2 (Or.inr ⟨τ1, h3, h5⟩), h6.seq (dceStmts_grows hk ss u)⟩
end

mutual
/-- Every execution of what is left of a statement is one of the statement, unless this can fail. -/
theorem backStmt : ∀ (s : ZStmt (ZMod p) Z) (u : Used) {W : ZId → Prop} {σ τ : ZState p} {r : Except Fault (ZState p)}, s.BranchesApart hm → s.ArgsUsed hd → s.CallsOk O →
    (∀ x ∈ s.mentions hm, (dceStmt hd s u).2 x = true → W x) → Agree W σ τ →
    ExecL O τ (dceStmt hd s u).1 r → (∃ e, Exec O σ s (.error e)) ∨ ∃ σ' τ', r = .ok τ' ∧ Exec O σ s (.ok σ') ∧ Agree (Left W s.assigns u) σ' τ'
  | .ret es, u, W, σ, τ, r, _, _, _, hW, h, hr => by
    have he := evZs es (fun x hx => h.env x (hW x (by simp [ZStmt.mentions, hx]) (names_iff.2 (Or.inl hx))))
    cases execL_single.1 hr with
    | ret h1 => exact Or.inr ⟨_, _, rfl, .ret (he ▸ h1), ⟨h.left.env, rfl⟩⟩
    | retFault h1 => exact Or.inl ⟨_, .retFault (he ▸ h1)⟩
  | .definition x e, u, W, σ, τ, r, _, _, _, hW, h, hr => by
    rw [dce_definition] at hW hr
    by_cases hu : u x = true
    · rw [if_pos hu] at hW hr
      have he := evZ e (fun y hy => h.env y (hW y (by simp [ZStmt.mentions, hy]) (names_iff.2 (Or.inr (names_iff.2 (Or.inl hy))))))
      cases execL_single.1 hr with
      | definition h1 => exact Or.inr ⟨_, _, rfl, .definition (he ▸ h1), (h.set _ _).left⟩
      | definitionFault h1 => exact Or.inl ⟨_, .definitionFault (he ▸ h1)⟩
    · rw [if_neg hu] at hW hr
      cases hr
      rcases def_total (O := O) σ x e with ⟨v, h1⟩ | h1
      · exact Or.inr ⟨_, _, rfl, h1, h.left.drop (fun hx => hu (hx.2 (by simp [ZStmt.assigns]))) v⟩
      · exact Or.inl h1
  | .ifElse c t e, u, W, σ, τ, r, hF, hU, hC, hW, h, hr => by
    have hWt : ∀ x ∈ ZStmt.mentionsL hm t, (dceStmts hd t (u.names (idsB c))).2 x = true → W x :=
      fun x hm hx => hW x (by simp [ZStmt.mentions, hm]) (dceStmts_grows hk e _ x hx)
    have hWc : ∀ x ∈ idsB c, W x := fun x hx => hW x (by simp [ZStmt.mentions, hx])
      (dceStmts_grows hk e _ x (dceStmts_grows hk t _ x (names_iff.2 (Or.inl hx))))
    have hWe : ∀ x ∈ ZStmt.mentionsL hm e, (dceStmts hd e (dceStmts hd t (u.names (idsB c))).2).2 x = true →
        Left W (ZStmt.assignsL t) (u.names (idsB c)) x :=
      fun x hm hx => ⟨hW x (by simp [ZStmt.mentions, hm]) hx, fun hx' => absurd hm (hF.2.2 x hx')⟩
    have hLe : ∀ x, Left W (ZStmt.assigns (.ifElse c t e)) u x →
        Left (Left W (ZStmt.assignsL t) (u.names (idsB c))) (ZStmt.assignsL e) (dceStmts hd t (u.names (idsB c))).2 x :=
      fun x hx => ⟨⟨hx.1, fun h' => names_iff.2 (Or.inr (hx.2 (by simp [ZStmt.assigns, h'])))⟩,
        fun h' => dceStmts_grows hk t _ x (names_iff.2 (Or.inr (hx.2 (by simp [ZStmt.assigns, h']))))⟩
    have he := evB c (fun x hx => h.env x (hWc x hx))
    cases execL_single.1 hr with
    | ifElse h1 h2 h3 =>
      rcases backStmts t (u.names (idsB c)) hF.1 hU.1 hC.1 hWt h h2 with ⟨f, h4⟩ | ⟨σ1, τ1, h4, h5, h6⟩
      · exact Or.inl ⟨f, .thenFault (he ▸ h1) h4⟩
      · cases h4
        rcases backStmts e _ hF.2.1 hU.2 hC.2 hWe h6 h3 with ⟨f, h7⟩ | ⟨σ2, τ2, h7, h8, h9⟩
        · exact Or.inl ⟨f, .ifElse (he ▸ h1) h5 h7⟩
        · exact Or.inr ⟨σ2, τ2, h7, .ifElse (he ▸ h1) h5 h8, h9.mono hLe⟩
    | ifFault h1 => exact Or.inl ⟨_, .ifFault (he ▸ h1)⟩
    | thenFault h1 h2 =>
      rcases backStmts t (u.names (idsB c)) hF.1 hU.1 hC.1 hWt h h2 with ⟨f, h4⟩ | ⟨σ1, τ1, h4, h5, h6⟩
      · exact Or.inl ⟨f, .thenFault (he ▸ h1) h4⟩
      · cases h4
  | .assertion e err, u, W, σ, τ, r, _, _, _, hW, h, hr => by
    have hx : ∀ x ∈ idsB e, σ.env x = τ.env x := fun x hx => h.env x (hW x (by simp [ZStmt.mentions, hx]) (names_iff.2 (Or.inl hx)))
    cases execL_single.1 hr with
    | assertOk h1 => exact Or.inr ⟨_, _, rfl, .assertOk (evB e hx ▸ h1), h.left⟩
    | assertFailed h1 => exact Or.inl ⟨_, .assertFailed (evB e hx ▸ h1)⟩
    | assertFault hc h1 => exact Or.inl ⟨_, .assertFault hc (evB _ (fun x h' => hx x (idsB_conjunct hc x h')) ▸ h1)⟩
  | .multiDef xs embed g args, u, W, σ, τ, r, _, _, hC, hW, h, hr => by
    rw [dce_multiDef] at hW hr
    by_cases hb : (u.removeAny xs).1 = true
    · rw [if_pos hb] at hW hr
      have he := evZs args (fun y hy => h.env y (hW y (by simp [ZStmt.mentions, hy]) (names_iff.2 (Or.inr (names_iff.2 (Or.inl hy))))))
      cases execL_single.1 hr with
      | multiDef h1 h2 h3 => exact Or.inr ⟨_, _, rfl, .multiDef (he ▸ h1) h2 h3, (h.setAll _ _).left⟩
      | embedFault h1 h2 => exact Or.inl ⟨_, .embedFault (he ▸ h1) h2⟩
      | argsFault h1 => exact Or.inl ⟨_, .argsFault (he ▸ h1)⟩
    · rw [if_neg hb] at hW hr
      cases hr
      obtain ⟨h4, h5⟩ := removeAny_false (by simpa using hb)
      rcases multi_total σ hC with ⟨vs, h1⟩ | h1
      · refine Or.inr ⟨_, _, rfl, h1, h.left.dropAll (fun x hx hw => ?_) vs⟩
        have := hw.2 hx
        rw [h4 x hx] at this
        cases this
      · exact Or.inl h1
  | .log es, u, W, σ, τ, r, _, _, _, hW, h, hr => by
    have he := evZs es.flatten (fun x hx => h.env x (hW x (by simp [ZStmt.mentions, hx]) (names_iff.2 (Or.inl hx))))
    cases execL_single.1 hr with
    | log h1 => exact Or.inr ⟨_, _, rfl, .log (he ▸ h1), h.left⟩
    | logFault h1 => exact Or.inl ⟨_, .logFault (he ▸ h1)⟩
  | .assembly ss, u, W, σ, τ, r, _, hU, _, hW, h, hr => by
    cases execL_single.1 hr with
    | assembly h1 =>
      rcases asms_back hk hU hW h h1 with ⟨e, he, h2⟩ | ⟨σ1, τ1, he, h2, h3⟩
      · exact Or.inl ⟨e, .assembly h2⟩
      · exact Or.inr ⟨σ1, τ1, he, .assembly h2, h3.left⟩
/-- Every execution of what is left of a list of statements is one of the list, unless this can fail. -/
theorem backStmts : ∀ (ss : List (ZStmt (ZMod p) Z)) (u : Used) {W : ZId → Prop} {σ τ : ZState p} {r : Except Fault (ZState p)}, ZStmt.BranchesApartL hm ss → ZStmt.ArgsUsedL hd ss →
    ZStmt.CallsOkL O ss → (∀ x ∈ ZStmt.mentionsL hm ss, (dceStmts hd ss u).2 x = true → W x) → Agree W σ τ →
    ExecL O τ (dceStmts hd ss u).1 r → (∃ e, ExecL O σ ss (.error e)) ∨ ∃ σ' τ', r = .ok τ' ∧ ExecL O σ ss (.ok σ') ∧ Agree (Left W (ZStmt.assignsL ss) u) σ' τ'
  | [], u, W, σ, τ, r, _, _, _, _, h, hr => by
    cases hr
    exact Or.inr ⟨σ, τ, rfl, .nil, h.left⟩
  | s :: ss, u, W, σ, τ, r, hF, hU, hC, hW, h, hr => by
    have hW1 : ∀ x ∈ s.mentions hm, (dceStmt hd s (dceStmts hd ss u).2).2 x = true → W x :=
      fun x hm hx => hW x (by simp [ZStmt.mentionsL, hm]) hx
    have hWs : ∀ x ∈ ZStmt.mentionsL hm ss, (dceStmts hd ss u).2 x = true → Left W s.assigns (dceStmts hd ss u).2 x :=
      fun x hm hx => ⟨hW x (by simp [ZStmt.mentionsL, hm]) (dceStmt_grows hk s _ x hx), fun _ => hx⟩
    have hs := @backStmt s (dceStmts hd ss u).2 W σ τ
    rcases execL_append.1 hr with ⟨e, rfl, h1⟩ | ⟨τ1, h1, h2⟩
    · rcases hs hF.1 hU.1 hC.1 hW1 h h1 with ⟨f, h3⟩ | ⟨_, _, h3, _⟩
      · exact Or.inl ⟨f, .fault h3⟩
      · cases h3
    · rcases hs hF.1 hU.1 hC.1 hW1 h h1 with ⟨f, h3⟩ | ⟨σ1, τ1', h3, h4, h5⟩
      · exact Or.inl ⟨f, .fault h3⟩
      · cases h3
        rcases backStmts ss u hF.2 hU.2 hC.2 hWs h5 h2 with ⟨f, h6⟩ | ⟨σ2, τ2, h6, h7, h8⟩
        · exact Or.inl ⟨f, .cons h4 h6⟩
        · exact Or.inr ⟨σ2, τ2, h6, .cons h4 h7, h8.seq (dceStmts_grows hk ss u)⟩
end

mutual
/-- Failures outside of definitions are kept. -/
theorem failStmt : ∀ (s : ZStmt (ZMod p) Z) (u : Used) {W : ZId → Prop} {σ τ : ZState p} {f : Fault}, s.BranchesApart hm → s.ArgsUsed hd →
    (∀ x ∈ s.mentions hm, (dceStmt hd s u).2 x = true → W x) → Agree W σ τ →
    FailsOutside O σ s f → ExecL O τ (dceStmt hd s u).1 (.error f)
  | .ret es, u, W, σ, τ, f, _, _, hW, h, hr => by
    have he := evZs es (fun x hx => h.env x (hW x (by simp [ZStmt.mentions, hx]) (names_iff.2 (Or.inl hx))))
    cases hr with
    | ret h1 => exact execL_single.2 (.retFault (he ▸ h1))
  | .definition x e, u, W, σ, τ, f, _, _, _, _, hr => by cases hr
  | .ifElse c t e, u, W, σ, τ, f, hF, hU, hW, h, hr => by
    have hWt : ∀ x ∈ ZStmt.mentionsL hm t, (dceStmts hd t (u.names (idsB c))).2 x = true → W x :=
      fun x hm hx => hW x (by simp [ZStmt.mentions, hm]) (dceStmts_grows hk e _ x hx)
    have hWc : ∀ x ∈ idsB c, W x := fun x hx => hW x (by simp [ZStmt.mentions, hx])
      (dceStmts_grows hk e _ x (dceStmts_grows hk t _ x (names_iff.2 (Or.inl hx))))
    have hWe : ∀ x ∈ ZStmt.mentionsL hm e, (dceStmts hd e (dceStmts hd t (u.names (idsB c))).2).2 x = true →
        Left W (ZStmt.assignsL t) (u.names (idsB c)) x :=
      fun x hm hx => ⟨hW x (by simp [ZStmt.mentions, hm]) hx, fun hx' => absurd hm (hF.2.2 x hx')⟩
    have hLe : ∀ x, Left W (ZStmt.assigns (.ifElse c t e)) u x →
        Left (Left W (ZStmt.assignsL t) (u.names (idsB c))) (ZStmt.assignsL e) (dceStmts hd t (u.names (idsB c))).2 x :=
      fun x hx => ⟨⟨hx.1, fun h' => names_iff.2 (Or.inr (hx.2 (by simp [ZStmt.assigns, h'])))⟩,
        fun h' => dceStmts_grows hk t _ x (names_iff.2 (Or.inr (hx.2 (by simp [ZStmt.assigns, h']))))⟩
    have he := evB c (fun x hx => h.env x (hWc x hx))
    cases hr with
    | condition h1 => exact execL_single.2 (.ifFault (he ▸ h1))
    | consequence h1 h2 =>
      exact execL_single.2 (.thenFault (he ▸ h1) (failStmts t (u.names (idsB c)) hF.1 hU.1 hWt h h2))
    | alternative h1 h2 h3 =>
      obtain ⟨τ1, h4, h5⟩ := fwdStmts hk t (u.names (idsB c)) hF.1 hU.1 hWt h h2
      exact execL_single.2 (.ifElse (he ▸ h1) h4 (failStmts e _ hF.2.1 hU.2 hWe h5 h3))
  | .assertion e err, u, W, σ, τ, f, _, _, hW, h, hr => by
    have hx : ∀ x ∈ idsB e, σ.env x = τ.env x := fun x hx => h.env x (hW x (by simp [ZStmt.mentions, hx]) (names_iff.2 (Or.inl hx)))
    cases hr with
    | assertFailed h1 => exact execL_single.2 (.assertFailed (evB e hx ▸ h1))
    | assertFault hc h1 => exact execL_single.2 (.assertFault hc (evB _ (fun x h' => hx x (idsB_conjunct hc x h')) ▸ h1))
  | .multiDef xs embed g args, u, W, σ, τ, f, _, _, _, _, hr => by cases hr
  | .log es, u, W, σ, τ, f, _, _, hW, h, hr => by
    have he := evZs es.flatten (fun x hx => h.env x (hW x (by simp [ZStmt.mentions, hx]) (names_iff.2 (Or.inl hx))))
    cases hr with
    | log h1 => exact execL_single.2 (.logFault (he ▸ h1))
  | .assembly ss, u, W, σ, τ, f, _, hU, hW, h, hr => by
    cases hr with
    | assembly h1 =>
      rcases asms_fwd hk hU hW h h1 with ⟨e, he, h2⟩ | ⟨σ1, τ1, he, h2, h3⟩
      · cases he; exact execL_single.2 (.assembly h2)
      · cases he
/-- Failures outside of definitions are kept. -/
theorem failStmts : ∀ (ss : List (ZStmt (ZMod p) Z)) (u : Used) {W : ZId → Prop} {σ τ : ZState p} {f : Fault}, ZStmt.BranchesApartL hm ss → ZStmt.ArgsUsedL hd ss →
    (∀ x ∈ ZStmt.mentionsL hm ss, (dceStmts hd ss u).2 x = true → W x) → Agree W σ τ →
    FailsOutsideL O σ ss f → ExecL O τ (dceStmts hd ss u).1 (.error f)
  | [], u, W, σ, τ, f, _, _, _, h, hr => by cases hr
  | s :: ss, u, W, σ, τ, f, hF, hU, hW, h, hr => by
    have hW1 : ∀ x ∈ s.mentions hm, (dceStmt hd s (dceStmts hd ss u).2).2 x = true → W x :=
      fun x hm hx => hW x (by simp [ZStmt.mentionsL, hm]) hx
    have hWs : ∀ x ∈ ZStmt.mentionsL hm ss, (dceStmts hd ss u).2 x = true → Left W s.assigns (dceStmts hd ss u).2 x :=
      fun x hm hx => ⟨hW x (by simp [ZStmt.mentionsL, hm]) (dceStmt_grows hk s _ x hx), fun _ => hx⟩
    cases hr with
    | head h1 => exact execL_append.2 (Or.inl ⟨_, rfl, failStmt s (dceStmts hd ss u).2 hF.1 hU.1 hW1 h h1⟩)
    | tail h1 h2 =>
      obtain ⟨τ1, h3, h4⟩ := fwdStmt hk s (dceStmts hd ss u).2 hF.1 hU.1 hW1 h h1
      exact execL_append.2 (Or.inr ⟨τ1, h3, failStmts ss u hF.2 hU.2 hWs h4 h2⟩)
end
end

end Zok.Dce
