import Verif.Lemmas.DceExtract
import Verif.Lemmas.DceStmt
import Verif.Lemmas.NoCast
import Verif.Spec.NoTrunc
import Verif.Spec.OracleFree

/-
The elimination of dead code keeps well-typed functions well-typed, and plain functions plain.
-/

set_option linter.unusedSectionVars false
set_option linter.unusedSimpArgs false
set_option linter.unusedVariables false

namespace Zok.Dce
variable {p : ℕ} {Z : Type} [Fact p.Prime] {O : Oracle p Z} {hd : Z → Used → Z × Used} {hm : Z → List ZId} {W : ZId → Prop}

/-! ### Types -/

/-- The contexts agree on the variables in `W`; no other variable has a type it did not have before. -/
structure TAgree (W : ZId → Prop) (Γ Δ : TCtx) : Prop where
  on : ∀ x, W x → Δ x = Γ x
  new : ∀ x, Γ x = none → Δ x = none

variable {Γ Δ : TCtx}

theorem TAgree.mono {W' : ZId → Prop} (h : TAgree W Γ Δ) (hw : ∀ x, W' x → W x) : TAgree W' Γ Δ := ⟨fun x hx => h.on x (hw x hx), h.new⟩

theorem TAgree.left (h : TAgree W Γ Δ) {xs : List ZId} {u : Used} : TAgree (Left W xs u) Γ Δ := h.mono fun _ hx => hx.1

theorem TAgree.seq {xs ys : List ZId} {u v : Used} (h : TAgree (Left (Left W xs v) ys u) Γ Δ) (hg : ∀ x, u x = true → v x = true) :
    TAgree (Left W (xs ++ ys) u) Γ Δ :=
  h.mono fun _ hx => ⟨⟨hx.1, fun h' => hg _ (hx.2 (List.mem_append_left _ h'))⟩, fun h' => hx.2 (List.mem_append_right _ h')⟩

theorem TAgree.refl : TAgree W Γ Γ := ⟨fun _ _ => rfl, fun _ h => h⟩

theorem TAgree.set (h : TAgree W Γ Δ) (x : ZId) (t : ZType) : TAgree W (Γ.set x t) (Δ.set x t) := by
  constructor
  · intro y hy
    simp only [TCtx.set]
    split
    · rfl
    · exact h.on y hy
  · intro y hy
    simp only [TCtx.set] at hy ⊢
    split at hy
    · cases hy
    · rename_i hn
      rw [if_neg hn]
      exact h.new y hy

theorem TAgree.setAll (h : TAgree W Γ Δ) (xs : List ZId) (ts : List ZType) : TAgree W (Γ.setAll xs ts) (Δ.setAll xs ts) := by
  induction xs generalizing Γ Δ ts with
  | nil => exact h
  | cons x xs ih =>
    cases ts with
    | nil => exact h
    | cons t ts => exact ih (h.set x t) ts

theorem TAgree.drop (h : TAgree W Γ Δ) {x : ZId} (hx : ¬ W x) (t : ZType) : TAgree W (Γ.set x t) Δ := by
  constructor
  · intro y hy
    simp only [TCtx.set]
    split
    · rename_i e; exact absurd (e ▸ hy) hx
    · exact h.on y hy
  · intro y hy
    simp only [TCtx.set] at hy
    split at hy
    · cases hy
    · exact h.new y hy

theorem TAgree.dropAll (h : TAgree W Γ Δ) {xs : List ZId} (hx : ∀ x ∈ xs, ¬ W x) (ts : List ZType) : TAgree W (Γ.setAll xs ts) Δ := by
  induction xs generalizing Γ ts with
  | nil => exact h
  | cons x xs ih =>
    cases ts with
    | nil => exact h
    | cons t ts => exact ih (h.drop (hx x (by simp)) t) (fun y hy => hx y (by simp [hy])) ts

theorem wtZs {es : List (ZExpr (ZMod p))} (h : ∀ e ∈ es, WtZ Γ e) (hx : ∀ x ∈ idsZs es, Δ x = Γ x) : ∀ e ∈ es, WtZ Δ e := by
  induction es with
  | nil => intro e he; cases he
  | cons a as ih =>
    intro e he
    simp only [List.mem_cons] at he
    rcases he with rfl | he
    · exact wtZ _ (h _ (by simp)) fun x hx' => hx x (by simp [idsZs, hx'])
    · exact ih (fun e he => h e (by simp [he])) (fun x hx' => hx x (by simp [idsZs, hx'])) e he

theorem mem_idsBs {es : List (BExpr (ZMod p))} {x : ZId} (h : x ∈ idsBs es) : x ∈ idsZs (es.map .bool) := by
  induction es with
  | nil => cases h
  | cons e es ih =>
    simp only [idsBs, List.mem_append] at h
    simp only [List.map_cons, idsZs, idsZ, List.mem_append]
    exact h.imp id ih

theorem idsZs_append (a b : List (ZExpr (ZMod p))) : idsZs (a ++ b) = idsZs a ++ idsZs b := by
  induction a with
  | nil => rfl
  | cons e es ih => simp only [List.cons_append, idsZs, ih, List.append_assoc]

theorem wtEmbed {embed : Embed} {g : List ℕ} {args : List (ZExpr (ZMod p))} {ts : List ZType} (h : WtEmbed Γ embed g args ts)
    (hx : ∀ x ∈ idsZs args, Δ x = Γ x) : WtEmbed Δ embed g args ts := by
  cases h with
  | cast h => exact .cast (wtF _ h fun x hx' => hx x (by simp [idsZs, idsZ, hx']))
  | toBits h hw => exact .toBits (wtU _ h fun x hx' => hx x (by simp [idsZs, idsZ, hx'])) hw
  | fromBits h hw => exact .fromBits (wtBs _ h fun x hx' => hx x (mem_idsBs hx')) hw
  | bitArrayLe h1 h2 h3 h4 =>
    refine .bitArrayLe (wtBs _ h1 fun x hx' => hx x ?_) (wtBs _ h2 fun x hx' => hx x ?_) h3 h4
    · rw [idsZs_append]; exact List.mem_append_left _ (mem_idsBs hx')
    · rw [idsZs_append]; exact List.mem_append_right _ (mem_idsBs hx')
  | unpack h => exact .unpack (wtF _ h fun x hx' => hx x (by simp [idsZs, idsZ, hx']))

theorem wtStmts_append {a b : List (ZStmt (ZMod p) Z)} {Γ Γ' Γ'' : TCtx} (h1 : WtStmts Γ a Γ') (h2 : WtStmts Γ' b Γ'') : WtStmts Γ (a ++ b) Γ'' := by
  induction a generalizing Γ with
  | nil => cases h1; exact h2
  | cons s ss ih =>
    cases h1 with
    | cons h3 h4 => exact .cons h3 (ih h4)

theorem wtStmts_single {s : ZStmt (ZMod p) Z} {Γ Γ' : TCtx} (h : WtStmt Γ s Γ') : WtStmts Γ [s] Γ' := .cons h .nil

section
variable (hk : HintsKept O hd)
include hk

theorem wtDceAsms {ss : List (ZAsm (ZMod p) Z)} {u : Used} {Γ Δ Γ' : TCtx} (ha : ∀ xs f args, ZAsm.assignment xs f args ∈ ss → ∀ u, ∀ x ∈ args, (hd f u).2 x = true)
    (hW : ∀ x ∈ ss.flatMap (ZAsm.mentions hm), (dceAsms hd ss u).2 x = true → W x) (h : TAgree W Γ Δ) (hr : WtAsms Γ ss Γ') :
    ∃ Δ', WtAsms Δ (dceAsms hd ss u).1 Δ' ∧ TAgree W Γ' Δ' := by
  induction ss generalizing u Γ Δ with
  | nil => cases hr; exact ⟨_, .nil, h⟩
  | cons s ss ih =>
    have hW1 : ∀ x ∈ s.mentions hm, (dceAsm hd s u).2 x = true → W x :=
      fun x hm hx => hW x (by simp [hm]) (dceAsms_grows hk ss _ x hx)
    have hW2 : ∀ x ∈ ss.flatMap (ZAsm.mentions hm), (dceAsms hd ss (dceAsm hd s u).2).2 x = true → W x :=
      fun x hm hx => hW x (by rw [List.flatMap_cons]; exact List.mem_append_right _ hm) hx
    have ih := fun {u Γ Δ} => ih (u := u) (Γ := Γ) (Δ := Δ) (fun xs f args hm => ha xs f args (by simp [hm]))
    cases hr with
    | cons h1 h2 =>
      cases h1 with
      | @assignment xs f args h3 =>
        obtain ⟨Δ', h4, h5⟩ := ih hW2 (h.setAll xs _) h2
        refine ⟨Δ', .cons (.assignment fun x hx => ?_) h4, h5⟩
        rw [h.on x (hW1 x (by simp [ZAsm.mentions, hx]) (ha xs f args (by simp) _ x hx))]
        exact h3 x hx
      | @constraint l r info h3 h4 =>
        obtain ⟨Δ', h5, h6⟩ := ih hW2 h h2
        refine ⟨Δ', .cons (.constraint (wtF l h3 fun x hx => h.on x (hW1 x (by simp [ZAsm.mentions, hx]) ?_)) (wtF r h4 fun x hx => h.on x (hW1 x (by simp [ZAsm.mentions, hx]) ?_))) h5, h6⟩
        · exact names_iff.2 (Or.inr (names_iff.2 (Or.inl hx)))
        · exact names_iff.2 (Or.inl hx)

mutual
theorem wtDce : ∀ (s : ZStmt (ZMod p) Z) (u : Used) {W : ZId → Prop} {Γ Δ Γ' : TCtx}, s.BranchesApart hm → s.ArgsUsed hd →
    (∀ x ∈ s.mentions hm, (dceStmt hd s u).2 x = true → W x) → TAgree W Γ Δ →
    WtStmt Γ s Γ' → ∃ Δ', WtStmts Δ (dceStmt hd s u).1 Δ' ∧ TAgree (Left W s.assigns u) Γ' Δ'
  | .ret es, u, W, Γ, Δ, Γ', _, _, hW, h, hr => by
    cases hr with
    | ret h1 => exact ⟨_, wtStmts_single (.ret (wtZs h1 fun x hx => h.on x (hW x (by simp [ZStmt.mentions, hx]) (names_iff.2 (Or.inl hx))))), h.left⟩
  | .definition x e, u, W, Γ, Δ, Γ', _, _, hW, h, hr => by
    rw [dce_definition] at hW ⊢
    cases hr with
    | definition h1 =>
    by_cases hu : u x = true
    · rw [if_pos hu] at hW ⊢
      exact ⟨_, wtStmts_single (.definition (wtZ e h1 fun y hy => h.on y (hW y (by simp [ZStmt.mentions, hy]) (names_iff.2 (Or.inr (names_iff.2 (Or.inl hy))))))), (h.set _ _).left⟩
    · rw [if_neg hu] at hW ⊢
      exact ⟨Δ, .nil, h.left.drop (fun hx => hu (hx.2 (by simp [ZStmt.assigns]))) _⟩
  | .ifElse c t e, u, W, Γ, Δ, Γ', hF, hU, hW, h, hr => by
    have hWt : ∀ x ∈ ZStmt.mentionsL hm t, (dceStmts hd t (u.names (idsB c))).2 x = true → W x :=
      fun x hm hx => hW x (by simp [ZStmt.mentions, hm]) (dceStmts_grows hk e _ x hx)
    have hWc : ∀ x ∈ idsB c, W x := fun x hx => hW x (by simp [ZStmt.mentions, hx])
      (dceStmts_grows hk e _ x (dceStmts_grows hk t _ x (names_iff.2 (Or.inl hx))))
    have hWe : ∀ x ∈ ZStmt.mentionsL hm e, (dceStmts hd e (dceStmts hd t (u.names (idsB c))).2).2 x = true →
        Left W (ZStmt.assignsL t) (u.names (idsB c)) x :=
      fun x hm hx => ⟨hW x (by simp [ZStmt.mentions, hm]) hx, fun hx' => absurd hm (hF.2.2 x hx')⟩
    have hLe : ∀ x, Left W (ZStmt.assigns (.ifElse c t e)) u x →
        Left (Left W (ZStmt.assignsL t) (u.names (idsB c))) (ZStmt.assignsL e) (dceStmts hd t (u.names (idsB c))).2 x :=
      fun x hx => ⟨⟨hx.1, fun h' => names_iff.2 (Or.inr (hx.2 (by simp [ZStmt.assigns, h'])))⟩,
        fun h' => dceStmts_grows hk t _ x (names_iff.2 (Or.inr (hx.2 (by simp [ZStmt.assigns, h']))))⟩
    cases hr with
    | ifElse h1 h2 h3 =>
      obtain ⟨τ1, h4, h5⟩ := wtDces t (u.names (idsB c)) hF.1 hU.1 hWt h h2
      obtain ⟨τ2, h6, h7⟩ := wtDces e _ hF.2.1 hU.2 hWe h5 h3
      exact ⟨τ2, wtStmts_single (.ifElse (wtB c h1 fun x hx => h.on x (hWc x hx)) h4 h6), h7.mono hLe⟩
  | .assertion e err, u, W, Γ, Δ, Γ', _, _, hW, h, hr => by
    cases hr with
    | assertion h1 h2 => exact ⟨Δ, wtStmts_single (.assertion (wtB e h1 fun x hx => h.on x (hW x (by simp [ZStmt.mentions, hx]) (names_iff.2 (Or.inl hx)))) h2), h.left⟩
  | .multiDef xs embed g args, u, W, Γ, Δ, Γ', _, _, hW, h, hr => by
    rw [dce_multiDef] at hW ⊢
    cases hr with
    | multiDef h1 h2 h3 =>
    by_cases hb : (u.removeAny xs).1 = true
    · rw [if_pos hb] at hW ⊢
      exact ⟨_, wtStmts_single (.multiDef (fun x hx => h.new x (h1 x hx)) h2
        (wtEmbed h3 fun y hy => h.on y (hW y (by simp [ZStmt.mentions, hy]) (names_iff.2 (Or.inr (names_iff.2 (Or.inl hy))))))), (h.setAll _ _).left⟩
    · rw [if_neg hb] at hW ⊢
      obtain ⟨h4, h5⟩ := removeAny_false (by simpa using hb)
      refine ⟨Δ, .nil, h.left.dropAll (fun x hx hw => ?_) _⟩
      have := hw.2 hx
      rw [h4 x hx] at this
      cases this
  | .log es, u, W, Γ, Δ, Γ', _, _, hW, h, hr => by
    cases hr with
    | log h1 => exact ⟨Δ, wtStmts_single (.log (wtZs h1 fun x hx => h.on x (hW x (by simp [ZStmt.mentions, hx]) (names_iff.2 (Or.inl hx))))), h.left⟩
  | .assembly ss, u, W, Γ, Δ, Γ', _, hU, hW, h, hr => by
    cases hr with
    | assembly h1 =>
      obtain ⟨Δ', h2, h3⟩ := wtDceAsms hk hU hW h h1
      exact ⟨Δ', wtStmts_single (.assembly h2), h3.left⟩
theorem wtDces : ∀ (ss : List (ZStmt (ZMod p) Z)) (u : Used) {W : ZId → Prop} {Γ Δ Γ' : TCtx}, ZStmt.BranchesApartL hm ss → ZStmt.ArgsUsedL hd ss →
    (∀ x ∈ ZStmt.mentionsL hm ss, (dceStmts hd ss u).2 x = true → W x) → TAgree W Γ Δ →
    WtStmts Γ ss Γ' → ∃ Δ', WtStmts Δ (dceStmts hd ss u).1 Δ' ∧ TAgree (Left W (ZStmt.assignsL ss) u) Γ' Δ'
  | [], u, W, Γ, Δ, Γ', _, _, _, h, hr => by
    cases hr
    exact ⟨Δ, .nil, h.left⟩
  | s :: ss, u, W, Γ, Δ, Γ', hF, hU, hW, h, hr => by
    have hW1 : ∀ x ∈ s.mentions hm, (dceStmt hd s (dceStmts hd ss u).2).2 x = true → W x :=
      fun x hm hx => hW x (by simp [ZStmt.mentionsL, hm]) hx
    have hWs : ∀ x ∈ ZStmt.mentionsL hm ss, (dceStmts hd ss u).2 x = true → Left W s.assigns (dceStmts hd ss u).2 x :=
      fun x hm hx => ⟨hW x (by simp [ZStmt.mentionsL, hm]) (dceStmt_grows hk s _ x hx), fun _ => hx⟩
    cases hr with
    | cons h1 h2 =>
      obtain ⟨τ1, h3, h4⟩ := wtDce s (dceStmts hd ss u).2 hF.1 hU.1 hW1 h h1
      obtain ⟨τ2, h5, h6⟩ := wtDces ss u hF.2 hU.2 hWs h4 h2
      exact ⟨τ2, wtStmts_append h3 h5, h6.seq (dceStmts_grows hk ss u)⟩
end
end

theorem dce_ret (hd : Z → Used → Z × Used) {f : ZFun (ZMod p) Z} {ss : List (ZStmt (ZMod p) Z)} {es : List (ZExpr (ZMod p))} (h : f.body = ss ++ [.ret es]) :
    ∃ u, (eliminateDeadCode hd f).body = (dceStmts hd ss u).1 ++ [.ret es] := by
  refine ⟨(dceStmts hd [.ret es] fun _ => false).2, ?_⟩
  simp only [eliminateDeadCode, h]
  rw [dceStmts_append]
  rfl

theorem dce_wt (hk : HintsKept O hd) {f : ZFun (ZMod p) Z} (hF : ZStmt.BranchesApartL hm f.body) (hU : ZStmt.ArgsUsedL hd f.body)
    (h : WtFun f) : WtFun (eliminateDeadCode hd f) := by
  obtain ⟨h1, ss, es, Γ', h2, h3, h4⟩ := h
  obtain ⟨u, h5⟩ := dce_ret hd h2
  obtain ⟨Δ', h6, _⟩ := wtDces (W := fun x => (dceStmts hd f.body fun _ => false).2 x = true) hk f.body (fun _ => false) hF hU
    (fun _ _ h => h) TAgree.refl h4
  exact ⟨h1, _, es, Δ', h5, h3, h6⟩

/-! ### Plain functions -/

/-- The variables in `W` have the same range. -/
def VAgree (W : ZId → Prop) (V V' : FullVars) : Prop := ∀ x, W x → ∀ w, V x w = V' x w

variable {V V' V₁ : FullVars}

theorem VAgree.mono {W' : ZId → Prop} (h : VAgree W V V') (hw : ∀ x, W' x → W x) : VAgree W' V V' := fun x hx => h x (hw x hx)

theorem VAgree.left (h : VAgree W V V') {xs : List ZId} {u : Used} : VAgree (Left W xs u) V V' := h.mono fun _ hx => hx.1

theorem VAgree.seq {xs ys : List ZId} {u v : Used} (h : VAgree (Left (Left W xs v) ys u) V V') (hg : ∀ x, u x = true → v x = true) :
    VAgree (Left W (xs ++ ys) u) V V' :=
  h.mono fun _ hx => ⟨⟨hx.1, fun h' => hg _ (hx.2 (List.mem_append_left _ h'))⟩, fun h' => hx.2 (List.mem_append_right _ h')⟩

theorem VAgree.set (h : VAgree W V V') (x : ZId) (w : ℕ) (b : Bool) : VAgree W (V.set x w b) (V'.set x w b) := by
  intro y hy v
  simp only [FullVars.set]
  split
  · rfl
  · exact h y hy v

theorem VAgree.drop (h : VAgree W V V') {x : ZId} (hx : ¬ W x) (w : ℕ) (b : Bool) : VAgree W (V.set x w b) V' := by
  intro y hy v
  simp only [FullVars.set]
  split
  · rename_i e; exact absurd (e.1 ▸ hy) hx
  · exact h y hy v

theorem VAgree.call (h : VAgree W V V') (embed : Embed) (xs : List ZId) : VAgree W (V.call embed xs) (V'.call embed xs) := by
  unfold FullVars.call
  split
  · exact h.set _ _ _
  · exact h

theorem VAgree.dropCall (h : VAgree W V V') {xs : List ZId} (hx : ∀ x ∈ xs, ¬ W x) (embed : Embed) : VAgree W (V.call embed xs) V' := by
  unfold FullVars.call
  split
  · exact h.drop (hx _ (by simp)) _ _
  · exact h

theorem plZs {es : List (ZExpr (ZMod p))} (hx : ∀ x ∈ idsZs es, ∀ w, V x w = V' x w) : es.all (plainZ V) = es.all (plainZ V') := by
  induction es with
  | nil => rfl
  | cons a as ih =>
    simp only [List.all_cons]
    rw [plZ a fun x hx' => hx x (by simp [idsZs, hx']), ih fun x hx' => hx x (by simp [idsZs, hx'])]

theorem plainStmts_append {a b : List (ZStmt (ZMod p) Z)} : plainStmts V (a ++ b) = (plainStmts V a).bind fun V => plainStmts V b := by
  induction a generalizing V with
  | nil => rfl
  | cons s ss ih =>
    simp only [List.cons_append, plainStmts]
    cases plainStmt V s with
    | none => rfl
    | some V1 => simp only [Option.bind_some]; exact ih

theorem plainStmts_single {s : ZStmt (ZMod p) Z} : plainStmts V [s] = plainStmt V s := by
  simp only [plainStmts]
  cases plainStmt V s <;> rfl

section
variable (hk : HintsKept O hd)
include hk

theorem plDceAsms {ss : List (ZAsm (ZMod p) Z)} {u : Used} {V V' : FullVars} (hW : ∀ x ∈ ss.flatMap (ZAsm.mentions hm), (dceAsms hd ss u).2 x = true → W x) (h : VAgree W V V')
    (hr : ss.all (plainAsm V) = true) : (dceAsms hd ss u).1.all (plainAsm V') = true := by
  induction ss generalizing u with
  | nil => rfl
  | cons s ss ih =>
    have hW1 : ∀ x ∈ s.mentions hm, (dceAsm hd s u).2 x = true → W x :=
      fun x hm hx => hW x (by simp [hm]) (dceAsms_grows hk ss _ x hx)
    have hW2 : ∀ x ∈ ss.flatMap (ZAsm.mentions hm), (dceAsms hd ss (dceAsm hd s u).2).2 x = true → W x :=
      fun x hm hx => hW x (by rw [List.flatMap_cons]; exact List.mem_append_right _ hm) hx
    simp only [List.all_cons, Bool.and_eq_true] at hr
    simp only [dceAsms, List.all_cons, Bool.and_eq_true]
    refine ⟨?_, ih hW2 hr.2⟩
    cases s with
    | assignment xs f args => rfl
    | constraint l r i =>
      have hr1 := hr.1
      simp only [dceAsm, plainAsm, Bool.and_eq_true] at hr1 ⊢
      rw [← plF l fun x hx => h x (hW1 x (by simp [ZAsm.mentions, hx]) (names_iff.2 (Or.inr (names_iff.2 (Or.inl hx))))),
        ← plF r fun x hx => h x (hW1 x (by simp [ZAsm.mentions, hx]) (names_iff.2 (Or.inl hx)))]
      exact hr1

mutual
theorem plDce : ∀ (s : ZStmt (ZMod p) Z) (u : Used) {W : ZId → Prop} {V V' V₁ : FullVars}, s.BranchesApart hm →
    (∀ x ∈ s.mentions hm, (dceStmt hd s u).2 x = true → W x) → VAgree W V V' →
    plainStmt V s = some V₁ → ∃ V₁', plainStmts V' (dceStmt hd s u).1 = some V₁' ∧ VAgree (Left W s.assigns u) V₁ V₁'
  | .ret es, u, W, V, V', V₁, _, hW, h, hr => by
    simp only [plainStmt] at hr
    rw [plZs fun x hx => h x (hW x (by simp [ZStmt.mentions, hx]) (names_iff.2 (Or.inl hx)))] at hr
    simp only [dceStmt, plainStmts_single, plainStmt]
    split at hr
    · rename_i hc; cases hr; exact ⟨V', if_pos hc, h.left⟩
    · cases hr
  | .definition x e, u, W, V, V', V₁, _, hW, h, hr => by
    rw [dce_definition] at hW ⊢
    by_cases hu : u x = true
    · rw [if_pos hu] at hW ⊢
      have hV : ∀ y ∈ idsZ e, ∀ w, V y w = V' y w := fun y hy => h y (hW y (by simp [ZStmt.mentions, hy]) (names_iff.2 (Or.inr (names_iff.2 (Or.inl hy)))))
      simp only [plainStmt] at hr
      rw [plZ e hV] at hr
      simp only [plainStmts_single, plainStmt]
      split at hr
      · rename_i hc
        cases hr
        refine ⟨_, if_pos hc, ?_⟩
        cases e with
        | uint e =>
          simp only [FullVars.define]
          rw [fuU e hV]
          exact (h.set _ _ _).left
        | field e => exact h.left
        | bool e => exact h.left
      · cases hr
    · rw [if_neg hu] at hW ⊢
      refine ⟨V', rfl, ?_⟩
      have hx : ¬ Left W (ZStmt.assigns (.definition x e : ZStmt (ZMod p) Z)) u x := fun hx => hu (hx.2 (by simp [ZStmt.assigns]))
      simp only [plainStmt] at hr
      split at hr
      · cases hr
        cases e with
        | uint e => exact h.left.drop hx _ _
        | field e => exact h.left
        | bool e => exact h.left
      · cases hr
  | .ifElse c t e, u, W, V, V', V₁, hF, hW, h, hr => by
    have hWt : ∀ x ∈ ZStmt.mentionsL hm t, (dceStmts hd t (u.names (idsB c))).2 x = true → W x :=
      fun x hm hx => hW x (by simp [ZStmt.mentions, hm]) (dceStmts_grows hk e _ x hx)
    have hWc : ∀ x ∈ idsB c, W x := fun x hx => hW x (by simp [ZStmt.mentions, hx])
      (dceStmts_grows hk e _ x (dceStmts_grows hk t _ x (names_iff.2 (Or.inl hx))))
    have hWe : ∀ x ∈ ZStmt.mentionsL hm e, (dceStmts hd e (dceStmts hd t (u.names (idsB c))).2).2 x = true →
        Left W (ZStmt.assignsL t) (u.names (idsB c)) x :=
      fun x hm hx => ⟨hW x (by simp [ZStmt.mentions, hm]) hx, fun hx' => absurd hm (hF.2.2 x hx')⟩
    have hLe : ∀ x, Left W (ZStmt.assigns (.ifElse c t e)) u x →
        Left (Left W (ZStmt.assignsL t) (u.names (idsB c))) (ZStmt.assignsL e) (dceStmts hd t (u.names (idsB c))).2 x :=
      fun x hx => ⟨⟨hx.1, fun h' => names_iff.2 (Or.inr (hx.2 (by simp [ZStmt.assigns, h'])))⟩,
        fun h' => dceStmts_grows hk t _ x (names_iff.2 (Or.inr (hx.2 (by simp [ZStmt.assigns, h']))))⟩
    simp only [plainStmt] at hr
    rw [plB c fun x hx => h x (hWc x hx)] at hr
    split at hr
    · rename_i hc
      cases ht : plainStmts V t with
      | none => rw [ht] at hr; cases hr
      | some V2 =>
        rw [ht] at hr
        obtain ⟨τ1, h4, h5⟩ := plDces t (u.names (idsB c)) hF.1 hWt h ht
        obtain ⟨τ2, h6, h7⟩ := plDces e _ hF.2.1 hWe h5 hr
        refine ⟨τ2, ?_, h7.mono hLe⟩
        simp only [dceStmt, plainStmts_single, plainStmt]
        rw [if_pos hc, h4]
        exact h6
    · cases hr
  | .assertion e err, u, W, V, V', V₁, _, hW, h, hr => by
    simp only [plainStmt] at hr
    rw [plB e fun x hx => h x (hW x (by simp [ZStmt.mentions, hx]) (names_iff.2 (Or.inl hx)))] at hr
    simp only [dceStmt, plainStmts_single, plainStmt]
    split at hr
    · rename_i hc; cases hr; exact ⟨V', if_pos hc, h.left⟩
    · cases hr
  | .multiDef xs embed g args, u, W, V, V', V₁, _, hW, h, hr => by
    rw [dce_multiDef] at hW ⊢
    by_cases hb : (u.removeAny xs).1 = true
    · rw [if_pos hb] at hW ⊢
      have hWa : ∀ y ∈ idsZs args, W y := fun y hy => hW y (by simp [ZStmt.mentions, hy]) (names_iff.2 (Or.inr (names_iff.2 (Or.inl hy))))
      simp only [plainStmt] at hr
      rw [plZs (V := V) fun y hy => h y (hWa y hy), plZs (V := V.call embed xs) fun y hy => h.call embed xs y (hWa y hy)] at hr
      simp only [plainStmts_single, plainStmt]
      split at hr
      · rename_i hc; cases hr; exact ⟨_, if_pos hc, (h.call _ _).left⟩
      · cases hr
    · rw [if_neg hb] at hW ⊢
      obtain ⟨h4, h5⟩ := removeAny_false (by simpa using hb)
      refine ⟨V', rfl, ?_⟩
      simp only [plainStmt] at hr
      split at hr
      · cases hr
        refine h.left.dropCall (fun x hx hw => ?_) _
        have := hw.2 hx
        rw [h4 x hx] at this
        cases this
      · cases hr
  | .log es, u, W, V, V', V₁, _, hW, h, hr => by
    have hV : ∀ y ∈ idsZs es.flatten, ∀ w, V y w = V' y w := fun x hx => h x (hW x (by simp [ZStmt.mentions, hx]) (names_iff.2 (Or.inl hx)))
    have he : (es.all fun l => l.all (plainZ V)) = es.all fun l => l.all (plainZ V') := by
      rw [← List.all_flatten, ← List.all_flatten]
      exact plZs hV
    simp only [plainStmt] at hr
    rw [he] at hr
    simp only [dceStmt, plainStmts_single, plainStmt]
    split at hr
    · rename_i hc; cases hr; exact ⟨V', if_pos hc, h.left⟩
    · cases hr
  | .assembly ss, u, W, V, V', V₁, _, hW, h, hr => by
    simp only [plainStmt] at hr
    simp only [dceStmt, plainStmts_single, plainStmt]
    split at hr
    · rename_i hc; cases hr; exact ⟨V', if_pos (plDceAsms hk hW h hc), h.left⟩
    · cases hr
theorem plDces : ∀ (ss : List (ZStmt (ZMod p) Z)) (u : Used) {W : ZId → Prop} {V V' V₁ : FullVars}, ZStmt.BranchesApartL hm ss →
    (∀ x ∈ ZStmt.mentionsL hm ss, (dceStmts hd ss u).2 x = true → W x) → VAgree W V V' →
    plainStmts V ss = some V₁ → ∃ V₁', plainStmts V' (dceStmts hd ss u).1 = some V₁' ∧ VAgree (Left W (ZStmt.assignsL ss) u) V₁ V₁'
  | [], u, W, V, V', V₁, _, _, h, hr => by
    cases hr
    exact ⟨V', rfl, h.left⟩
  | s :: ss, u, W, V, V', V₁, hF, hW, h, hr => by
    have hW1 : ∀ x ∈ s.mentions hm, (dceStmt hd s (dceStmts hd ss u).2).2 x = true → W x :=
      fun x hm hx => hW x (by simp [ZStmt.mentionsL, hm]) hx
    have hWs : ∀ x ∈ ZStmt.mentionsL hm ss, (dceStmts hd ss u).2 x = true → Left W s.assigns (dceStmts hd ss u).2 x :=
      fun x hm hx => ⟨hW x (by simp [ZStmt.mentionsL, hm]) (dceStmt_grows hk s _ x hx), fun _ => hx⟩
    simp only [plainStmts] at hr
    cases h1 : plainStmt V s with
    | none => rw [h1] at hr; cases hr
    | some V2 =>
      rw [h1] at hr
      obtain ⟨τ1, h3, h4⟩ := plDce s (dceStmts hd ss u).2 hF.1 hW1 h h1
      obtain ⟨τ2, h5, h6⟩ := plDces ss u hF.2 hWs h4 hr
      refine ⟨τ2, ?_, h6.seq (dceStmts_grows hk ss u)⟩
      simp only [dceStmts]
      rw [plainStmts_append, h3]
      exact h5
end
end

theorem dce_plain (hk : HintsKept O hd) {f : ZFun (ZMod p) Z} (hF : ZStmt.BranchesApartL hm f.body)
    (h : plainFun f = true) : plainFun (eliminateDeadCode hd f) = true := by
  unfold plainFun at h ⊢
  obtain ⟨V₁, h1⟩ := Option.isSome_iff_exists.1 h
  obtain ⟨V₂, h2, _⟩ := plDces (W := fun x => (dceStmts hd f.body fun _ => false).2 x = true) hk f.body (fun _ => false) hF
    (fun _ _ h => h) (fun _ _ _ => rfl) h1
  rw [show (eliminateDeadCode hd f).body = (dceStmts hd f.body fun _ => false).1 from rfl,
    show (eliminateDeadCode hd f).params = f.params from rfl, h2]
  rfl

/-! ### Other properties -/

/-- A property of statements which is kept when statements are removed. -/
structure Hereditary (hd : Z → Used → Z × Used) (Q : ZStmt (ZMod p) Z → Prop) (QL : List (ZStmt (ZMod p) Z) → Prop) : Prop where
  list : ∀ ss, QL ss ↔ ∀ s ∈ ss, Q s
  ifElse : ∀ c t e, Q (.ifElse c t e) ↔ QL t ∧ QL e
  assembly : ∀ ss u, Q (.assembly ss) → Q (.assembly (dceAsms hd ss u).1)

variable {Q : ZStmt (ZMod p) Z → Prop} {QL : List (ZStmt (ZMod p) Z) → Prop}

theorem Hereditary.single (hQ : Hereditary hd Q QL) {s : ZStmt (ZMod p) Z} : QL [s] ↔ Q s := by simp [hQ.list]

mutual
theorem keepStmt (hQ : Hereditary hd Q QL) : ∀ (s : ZStmt (ZMod p) Z) (u : Used), Q s → QL (dceStmt hd s u).1
  | .ret es, u, h => hQ.single.2 h
  | .definition x e, u, h => by
    rw [dce_definition]
    split
    · exact hQ.single.2 h
    · exact (hQ.list _).2 fun s hs => by cases hs
  | .ifElse c t e, u, h => by
    obtain ⟨h1, h2⟩ := (hQ.ifElse _ _ _).1 h
    have h3 := keepStmts hQ t (u.names (idsB c)) h1
    have h4 := keepStmts hQ e (dceStmts hd t (u.names (idsB c))).2 h2
    exact hQ.single.2 ((hQ.ifElse _ _ _).2 ⟨h3, h4⟩)
  | .assertion e err, u, h => hQ.single.2 h
  | .multiDef xs embed g args, u, h => by
    rw [dce_multiDef]
    split
    · exact hQ.single.2 h
    · exact (hQ.list _).2 fun s hs => by cases hs
  | .log es, u, h => hQ.single.2 h
  | .assembly ss, u, h => hQ.single.2 (hQ.assembly ss u h)
theorem keepStmts (hQ : Hereditary hd Q QL) : ∀ (ss : List (ZStmt (ZMod p) Z)) (u : Used), QL ss → QL (dceStmts hd ss u).1
  | [], u, h => h
  | s :: ss, u, h => by
    have h1 : Q s := (hQ.list _).1 h s (by simp)
    have h2 : QL ss := (hQ.list _).2 fun t ht => (hQ.list _).1 h t (by simp [ht])
    have h3 := keepStmt hQ s (dceStmts hd ss u).2 h1
    have h4 := keepStmts hQ ss u h2
    simp only [dceStmts]
    rw [hQ.list] at h3 h4 ⊢
    intro t ht
    rcases List.mem_append.1 ht with ht | ht
    · exact h3 t ht
    · exact h4 t ht
end

theorem hereditary_noAsm : Hereditary hd (ZStmt.NoAsm (p := p) (Z := Z)) ZStmt.NoAsmL where
  list ss := by
    induction ss with
    | nil => simp [ZStmt.NoAsmL]
    | cons s ss ih => simp [ZStmt.NoAsmL, ih]
  ifElse c t e := Iff.rfl
  assembly ss u h := h.elim

theorem hereditary_oracleFree : Hereditary hd (ZStmt.OracleFree (F := ZMod p) (Z := Z)) ZStmt.OracleFreeL where
  list ss := by
    induction ss with
    | nil => simp [ZStmt.OracleFreeL]
    | cons s ss ih => simp [ZStmt.OracleFreeL, ih]
  ifElse c t e := Iff.rfl
  assembly ss u h := h.elim

theorem hereditary_inner : Hereditary hd (ZStmt.Inner (F := ZMod p) (Z := Z)) ZStmt.InnerL where
  list ss := by
    induction ss with
    | nil => simp [ZStmt.InnerL]
    | cons s ss ih => simp [ZStmt.InnerL, ih]
  ifElse c t e := Iff.rfl
  assembly ss u h := trivial

theorem hereditary_noCast : Hereditary hd (ZStmt.NoCast (F := ZMod p) (Z := Z)) ZStmt.NoCastL where
  list ss := by
    induction ss with
    | nil => simp [ZStmt.NoCastL]
    | cons s ss ih => simp [ZStmt.NoCastL, ih]
  ifElse c t e := Iff.rfl
  assembly ss u h := trivial

theorem dce_singleReturn {f : ZFun (ZMod p) Z} (h : SingleReturn f) : SingleReturn (eliminateDeadCode hd f) := by
  obtain ⟨ss, es, h1, h2⟩ := h
  obtain ⟨u, h3⟩ := dce_ret hd h1
  exact ⟨_, es, h3, keepStmts hereditary_inner ss u h2⟩

end Zok.Dce
