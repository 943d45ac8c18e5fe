import Verif.Lemmas.DceCongr
import Verif.Lemmas.Bits

/-
Lemmas: the elimination of dead code simulates the program.
-/

set_option linter.unusedSectionVars false
set_option linter.unusedSimpArgs false

namespace Zok.Dce
variable {p : ℕ} {Z : Type} [Fact p.Prime] {O : Oracle p Z} {hd : Z → Used → Z × Used} {hm : Z → List ZId}

/-! ### Used identifiers -/

theorem names_iff {u : Used} {xs : List ZId} {y : ZId} : u.names xs y = true ↔ y ∈ xs ∨ u y = true := by
  induction xs generalizing u with
  | nil => simp [Used.names]
  | cons x xs ih =>
    have := ih (u := u.insert x)
    simp only [Used.names, List.foldl_cons] at this ⊢
    rw [this]
    simp only [Used.insert, Bool.or_eq_true, decide_eq_true_eq, List.mem_cons]
    tauto

/-- The set without an element. -/
def without (u : Used) (x : ZId) : Used := fun y => !decide (y = x) && u y

theorem removeAny_cons (u : Used) (x : ZId) (xs : List ZId) :
    u.removeAny (x :: xs) = if u x = true then (true, without u x) else (without u x).removeAny xs := rfl

theorem without_eq {u : Used} {x : ZId} (h : u x = false) : without u x = u := by
  funext y
  unfold without
  by_cases hy : y = x
  · subst hy; simp [h]
  · simp [hy]

theorem removeAny_false {u : Used} {xs : List ZId} (h : (u.removeAny xs).1 = false) :
    (∀ x ∈ xs, u x = false) ∧ (u.removeAny xs).2 = u := by
  induction xs generalizing u with
  | nil => exact ⟨fun x hx => by simp at hx, rfl⟩
  | cons x xs ih =>
    rw [removeAny_cons] at h ⊢
    by_cases hx : u x = true
    · rw [if_pos hx] at h; cases h
    · rw [if_neg hx] at h ⊢
      rw [without_eq (by simpa using hx)] at h ⊢
      obtain ⟨h1, h2⟩ := ih h
      refine ⟨?_, h2⟩
      intro y hy
      rcases List.mem_cons.1 hy with rfl | hy
      · simpa using hx
      · exact h1 y hy

theorem removeAny_le {u : Used} {xs : List ZId} {y : ZId} (h : (u.removeAny xs).2 y = true) : u y = true := by
  induction xs generalizing u with
  | nil => exact h
  | cons x xs ih =>
    rw [removeAny_cons] at h
    by_cases hx : u x = true
    · rw [if_pos hx] at h
      simp only [without, Bool.and_eq_true] at h; exact h.2
    · rw [if_neg hx] at h
      have := ih h
      simp only [without, Bool.and_eq_true] at this; exact this.2

theorem removeAny_ge {u : Used} {xs : List ZId} {y : ZId} (h : u y = true) : (u.removeAny xs).2 y = true ∨ y ∈ xs := by
  by_cases hy : y ∈ xs
  · exact Or.inr hy
  refine Or.inl ?_
  induction xs generalizing u with
  | nil => exact h
  | cons x xs ih =>
    have hyx : y ≠ x := fun e => hy (by simp [e])
    have hw : without u x y = true := by simp [without, hyx, h]
    rw [removeAny_cons]
    by_cases hx : u x = true
    · rw [if_pos hx]; exact hw
    · rw [if_neg hx]; exact ih hw (fun h' => hy (by simp [h']))

theorem dce_definition (hd : Z → Used → Z × Used) (x : ZId) (e : ZExpr (ZMod p)) (u : Used) : dceStmt hd (.definition x e) u =
    if u x = true then ([.definition x e], ((without u x).names (idsZ e)).names [x]) else ([], without u x) := by
  rw [dceStmt]; rfl

theorem dce_multiDef (hd : Z → Used → Z × Used) (xs : List ZId) (embed : Embed) (g : List ℕ) (args : List (ZExpr (ZMod p))) (u : Used) :
    dceStmt hd (.multiDef xs embed g args) u = if (u.removeAny xs).1 = true then
      ([.multiDef xs embed g args], ((u.removeAny xs).2.names (idsZs args)).names xs) else ([], (u.removeAny xs).2) := by
  rw [dceStmt]

section
variable (hk : HintsKept O hd)
include hk

theorem dceAsm_grows (s : ZAsm (ZMod p) Z) (u : Used) (x : ZId) (h : u x = true) : (dceAsm hd s u).2 x = true := by
  cases s with
  | assignment xs f args => exact hk.grows _ _ _ (names_iff.2 (Or.inr h))
  | constraint l r info => exact names_iff.2 (Or.inr (names_iff.2 (Or.inr h)))

theorem dceAsms_grows (ss : List (ZAsm (ZMod p) Z)) (u : Used) (x : ZId) (h : u x = true) : (dceAsms hd ss u).2 x = true := by
  induction ss generalizing u with
  | nil => exact h
  | cons s ss ih => exact ih _ (dceAsm_grows hk s u x h)

mutual
theorem dceStmt_grows : ∀ (s : ZStmt (ZMod p) Z) (u : Used) (x : ZId), u x = true → (dceStmt hd s u).2 x = true
  | .ret es, u, x, h => names_iff.2 (Or.inr h)
  | .definition y e, u, x, h => by
    rw [dce_definition]
    by_cases hu : u y = true
    · rw [if_pos hu, names_iff, names_iff]
      by_cases hx : x = y
      · simp [hx]
      · simp [hx, h, without]
    · rw [if_neg hu, without_eq (by simpa using hu)]
      exact h
  | .ifElse c t e, u, x, h => by
    simp only [dceStmt]
    exact dceStmts_grows e _ x (dceStmts_grows t _ x (names_iff.2 (Or.inr h)))
  | .assertion e _, u, x, h => names_iff.2 (Or.inr h)
  | .multiDef xs embed g args, u, x, h => by
    rw [dce_multiDef]
    by_cases hb : (u.removeAny xs).1 = true
    · rw [if_pos hb, names_iff, names_iff]
      rcases removeAny_ge (xs := xs) h with h | h
      · simp [h]
      · simp [h]
    · rw [if_neg hb]
      rw [(removeAny_false (by simpa using hb)).2]
      exact h
  | .log es, u, x, h => names_iff.2 (Or.inr h)
  | .assembly ss, u, x, h => by
    simp only [dceStmt]
    exact dceAsms_grows hk ss u x h
theorem dceStmts_grows : ∀ (ss : List (ZStmt (ZMod p) Z)) (u : Used) (x : ZId), u x = true → (dceStmts hd ss u).2 x = true
  | [], u, x, h => h
  | s :: ss, u, x, h => by
    simp only [dceStmts]
    exact dceStmt_grows s _ x (dceStmts_grows ss u x h)
end

end

/-! ### Agreement of states -/

/-- The states agree on the variables in `W` and on the returned values. -/
structure Agree (W : ZId → Prop) (σ τ : ZState p) : Prop where
  env : ∀ x, W x → σ.env x = τ.env x
  outs : σ.outs = τ.outs

variable {W : ZId → Prop} {σ τ : ZState p}

/-- The variables which agree after `xs` are assigned and those of them outside of `u` forgotten. -/
def Left (W : ZId → Prop) (xs : List ZId) (u : Used) (x : ZId) : Prop := W x ∧ (x ∈ xs → u x = true)

theorem Agree.mono {W' : ZId → Prop} (h : Agree W σ τ) (hw : ∀ x, W' x → W x) : Agree W' σ τ := ⟨fun x hx => h.env x (hw x hx), h.outs⟩

theorem Agree.left (h : Agree W σ τ) {xs : List ZId} {u : Used} : Agree (Left W xs u) σ τ := h.mono fun _ hx => hx.1

theorem Agree.refl (σ : ZState p) : Agree W σ σ := ⟨fun _ _ => rfl, rfl⟩

theorem Agree.set (h : Agree W σ τ) (x : ZId) (v : ZVal p) : Agree W (σ.set x v) (τ.set x v) := by
  refine ⟨fun y hy => ?_, h.outs⟩
  simp only [ZState.set]
  split
  · rfl
  · exact h.env y hy

theorem Agree.setAll (h : Agree W σ τ) (xs : List ZId) (vs : List (ZVal p)) : Agree W (σ.setAll xs vs) (τ.setAll xs vs) := by
  induction xs generalizing σ τ vs with
  | nil => exact h
  | cons x xs ih =>
    cases vs with
    | nil => exact h
    | cons v vs => exact ih (h.set x v) vs

theorem Agree.drop (h : Agree W σ τ) {x : ZId} (hx : ¬ W x) (v : ZVal p) : Agree W (σ.set x v) τ := by
  refine ⟨fun y hy => ?_, h.outs⟩
  simp only [ZState.set]
  split
  · rename_i e; exact absurd (e ▸ hy) hx
  · exact h.env y hy

theorem Agree.dropAll (h : Agree W σ τ) {xs : List ZId} (hx : ∀ x ∈ xs, ¬ W x) (vs : List (ZVal p)) : Agree W (σ.setAll xs vs) τ := by
  induction xs generalizing σ vs with
  | nil => exact h
  | cons x xs ih =>
    cases vs with
    | nil => exact h
    | cons v vs => exact ih (h.drop (hx x (by simp)) v) (fun y hy => hx y (by simp [hy])) vs

theorem Agree.evalIds (h : Agree W σ τ) {xs : List ZId} (hx : ∀ x ∈ xs, W x) : evalIds σ.env xs = evalIds τ.env xs := by
  induction xs with
  | nil => rfl
  | cons x xs ih =>
    simp only [Zok.evalIds]
    rw [h.env x (hx x (by simp)), ih (fun y hy => hx y (by simp [hy]))]

/-! ### Assembly blocks -/

section
variable (hk : HintsKept O hd)
include hk

theorem asm_fwd {s : ZAsm (ZMod p) Z} {u : Used} (ha : ∀ xs f args, s = .assignment xs f args → ∀ u, ∀ x ∈ args, (hd f u).2 x = true)
    (hW : ∀ x ∈ s.mentions hm, (dceAsm hd s u).2 x = true → W x) (h : Agree W σ τ) {r : Except Fault (ZState p)} (hr : ExecAsm O σ s r) :
    (∃ e, r = .error e ∧ ExecAsm O τ (dceAsm hd s u).1 (.error e)) ∨
      ∃ σ' τ', r = .ok σ' ∧ ExecAsm O τ (dceAsm hd s u).1 (.ok τ') ∧ Agree W σ' τ' := by
  have hl : ∀ {l r : FExpr (ZMod p)} {info} , s = .constraint l r info → evalF σ.env l = evalF τ.env l ∧ evalF σ.env r = evalF τ.env r := by
    rintro l r info rfl
    exact ⟨evF l (fun x hx => h.env x (hW x (by simp [ZAsm.mentions, hx]) (names_iff.2 (Or.inr (names_iff.2 (Or.inl hx)))))),
      evF r (fun x hx => h.env x (hW x (by simp [ZAsm.mentions, hx]) (names_iff.2 (Or.inl hx))))⟩
  cases hr with
  | @assignment xs f args ins outs h1 h2 h3 =>
    right
    refine ⟨_, _, rfl, .assignment (ins := ins) (outs := outs) ?_ ?_ h3, h.setAll _ _⟩
    · rw [← h.evalIds (fun x hx => hW x (by simp [ZAsm.mentions, hx]) (ha xs f args rfl _ x hx))]; exact h1
    · rw [hk.meaning]; exact h2
  | ok h1 h2 =>
    right
    have := hl rfl
    exact ⟨_, _, rfl, .ok (this.1 ▸ h1) (this.2 ▸ h2), h⟩
  | failed h1 h2 h3 =>
    left
    have := hl rfl
    exact ⟨_, rfl, .failed (this.1 ▸ h1) (this.2 ▸ h2) h3⟩
  | faultL h1 =>
    left
    have := hl rfl
    exact ⟨_, rfl, .faultL (this.1 ▸ h1)⟩
  | faultR h1 h2 =>
    left
    have := hl rfl
    exact ⟨_, rfl, .faultR (this.1 ▸ h1) (this.2 ▸ h2)⟩

theorem asm_back {s : ZAsm (ZMod p) Z} {u : Used} (ha : ∀ xs f args, s = .assignment xs f args → ∀ u, ∀ x ∈ args, (hd f u).2 x = true)
    (hW : ∀ x ∈ s.mentions hm, (dceAsm hd s u).2 x = true → W x) (h : Agree W σ τ) {r : Except Fault (ZState p)} (hr : ExecAsm O τ (dceAsm hd s u).1 r) :
    (∃ e, r = .error e ∧ ExecAsm O σ s (.error e)) ∨ ∃ σ' τ', r = .ok τ' ∧ ExecAsm O σ s (.ok σ') ∧ Agree W σ' τ' := by
  cases s with
  | assignment xs f args =>
    simp only [dceAsm] at hr
    cases hr with
    | @assignment _ _ _ ins outs h1 h2 h3 =>
      right
      refine ⟨_, _, rfl, .assignment (ins := ins) (outs := outs) ?_ ?_ h3, h.setAll _ _⟩
      · rw [h.evalIds (fun x hx => hW x (by simp [ZAsm.mentions, hx]) (ha xs f args rfl _ x hx))]; exact h1
      · rw [hk.meaning] at h2; exact h2
  | constraint l r info =>
    have h1 : evalF σ.env l = evalF τ.env l := evF l (fun x hx => h.env x (hW x (by simp [ZAsm.mentions, hx]) (names_iff.2 (Or.inr (names_iff.2 (Or.inl hx))))))
    have h2 : evalF σ.env r = evalF τ.env r := evF r (fun x hx => h.env x (hW x (by simp [ZAsm.mentions, hx]) (names_iff.2 (Or.inl hx))))
    simp only [dceAsm] at hr
    cases hr with
    | ok h3 h4 => exact Or.inr ⟨_, _, rfl, .ok (h1 ▸ h3) (h2 ▸ h4), h⟩
    | failed h3 h4 h5 => exact Or.inl ⟨_, rfl, .failed (h1 ▸ h3) (h2 ▸ h4) h5⟩
    | faultL h3 => exact Or.inl ⟨_, rfl, .faultL (h1 ▸ h3)⟩
    | faultR h3 h4 => exact Or.inl ⟨_, rfl, .faultR (h1 ▸ h3) (h2 ▸ h4)⟩

theorem asms_fwd {ss : List (ZAsm (ZMod p) Z)} {u : Used} (ha : ∀ xs f args, ZAsm.assignment xs f args ∈ ss → ∀ u, ∀ x ∈ args, (hd f u).2 x = true)
    (hW : ∀ x ∈ ss.flatMap (ZAsm.mentions hm), (dceAsms hd ss u).2 x = true → W x) (h : Agree W σ τ) {r : Except Fault (ZState p)} (hr : ExecAsms O σ ss r) :
    (∃ e, r = .error e ∧ ExecAsms O τ (dceAsms hd ss u).1 (.error e)) ∨
      ∃ σ' τ', r = .ok σ' ∧ ExecAsms O τ (dceAsms hd ss u).1 (.ok τ') ∧ Agree W σ' τ' := by
  induction ss generalizing u σ τ with
  | nil => cases hr; exact Or.inr ⟨_, _, rfl, .nil, h⟩
  | cons s ss ih =>
    have ha1 : ∀ xs f args, s = .assignment xs f args → ∀ u, ∀ x ∈ args, (hd f u).2 x = true := fun xs f args e => ha xs f args (by simp [e])
    have hW1 : ∀ x ∈ s.mentions hm, (dceAsm hd s u).2 x = true → W x :=
      fun x hm hx => hW x (by simp [hm]) (dceAsms_grows hk ss _ x hx)
    have hW2 : ∀ x ∈ ss.flatMap (ZAsm.mentions hm), (dceAsms hd ss (dceAsm hd s u).2).2 x = true → W x :=
      fun x hm hx => hW x (by rw [List.flatMap_cons]; exact List.mem_append_right _ hm) hx
    cases hr with
    | fault h1 =>
      rcases asm_fwd hk ha1 hW1 h h1 with ⟨e, he, h2⟩ | ⟨σ', τ', he, _⟩
      · cases he; exact Or.inl ⟨_, rfl, .fault h2⟩
      · cases he
    | cons h1 h2 =>
      rcases asm_fwd hk ha1 hW1 h h1 with ⟨e, he, _⟩ | ⟨σ', τ', he, h3, h4⟩
      · cases he
      · cases he
        rcases ih (fun xs f args hm => ha xs f args (by simp [hm])) hW2 h4 h2 with ⟨e, he, h5⟩ | ⟨σ1, τ1, he, h5, h6⟩
        · exact Or.inl ⟨e, he, .cons h3 h5⟩
        · exact Or.inr ⟨σ1, τ1, he, .cons h3 h5, h6⟩

theorem asms_back {ss : List (ZAsm (ZMod p) Z)} {u : Used} (ha : ∀ xs f args, ZAsm.assignment xs f args ∈ ss → ∀ u, ∀ x ∈ args, (hd f u).2 x = true)
    (hW : ∀ x ∈ ss.flatMap (ZAsm.mentions hm), (dceAsms hd ss u).2 x = true → W x) (h : Agree W σ τ) {r : Except Fault (ZState p)} (hr : ExecAsms O τ (dceAsms hd ss u).1 r) :
    (∃ e, r = .error e ∧ ExecAsms O σ ss (.error e)) ∨ ∃ σ' τ', r = .ok τ' ∧ ExecAsms O σ ss (.ok σ') ∧ Agree W σ' τ' := by
  induction ss generalizing u σ τ with
  | nil => cases hr; exact Or.inr ⟨_, _, rfl, .nil, h⟩
  | cons s ss ih =>
    have ha1 : ∀ xs f args, s = .assignment xs f args → ∀ u, ∀ x ∈ args, (hd f u).2 x = true := fun xs f args e => ha xs f args (by simp [e])
    have hW1 : ∀ x ∈ s.mentions hm, (dceAsm hd s u).2 x = true → W x :=
      fun x hm hx => hW x (by simp [hm]) (dceAsms_grows hk ss _ x hx)
    have hW2 : ∀ x ∈ ss.flatMap (ZAsm.mentions hm), (dceAsms hd ss (dceAsm hd s u).2).2 x = true → W x :=
      fun x hm hx => hW x (by rw [List.flatMap_cons]; exact List.mem_append_right _ hm) hx
    simp only [dceAsms] at hr
    cases hr with
    | fault h1 =>
      rcases asm_back hk ha1 hW1 h h1 with ⟨e, he, h2⟩ | ⟨σ', τ', he, _⟩
      · cases he; exact Or.inl ⟨_, rfl, .fault h2⟩
      · cases he
    | cons h1 h2 =>
      rcases asm_back hk ha1 hW1 h h1 with ⟨e, he, _⟩ | ⟨σ', τ', he, h3, h4⟩
      · cases he
      · cases he
        rcases ih (fun xs f args hm => ha xs f args (by simp [hm])) hW2 h4 h2 with ⟨e, he, h5⟩ | ⟨σ1, τ1, he, h5, h6⟩
        · exact Or.inl ⟨e, he, .cons h3 h5⟩
        · exact Or.inr ⟨σ1, τ1, he, .cons h3 h5, h6⟩
end

/-! ### Calls -/

theorem embed_total {xs : List ZId} {embed : Embed} {g : List ℕ} {args : List (ZExpr (ZMod p))} (hc : CallOk O xs embed g args)
    {env : ZEnv p} {vs : List (ZVal p)} (h : evalZs env args = .ok vs) :
    (∃ rs, EmbedRes O embed g vs (.ok rs) ∧ rs.length = xs.length) ∨ EmbedRes O embed g vs (.error .notBool) := by
  have hb : ∀ {es : List (BExpr (ZMod p))} {vs : List (ZVal p)}, evalZs env (es.map .bool) = .ok vs →
      ∃ bl : List Bool, bl.length = es.length ∧ vs = bl.map .bool := by
    intro es
    induction es with
    | nil => intro vs h; cases h; exact ⟨[], rfl, rfl⟩
    | cons e es ih =>
      intro vs h
      simp only [List.map_cons, evalZs, evalZ] at h
      cases h1 : evalB env e with
      | error f => rw [h1] at h; cases h
      | ok b =>
        cases h2 : evalZs env (es.map .bool) with
        | error f => rw [h1, h2] at h; cases h
        | ok ws =>
          rw [h1, h2] at h
          cases h
          obtain ⟨bl, hl, rfl⟩ := ih h2
          exact ⟨b :: bl, by simp [hl], rfl⟩
  have happ : ∀ {as bs : List (ZExpr (ZMod p))} {vs : List (ZVal p)}, evalZs env (as ++ bs) = .ok vs →
      ∃ v1 v2, evalZs env as = .ok v1 ∧ evalZs env bs = .ok v2 ∧ vs = v1 ++ v2 := by
    intro as
    induction as with
    | nil => intro bs vs h; exact ⟨[], vs, rfl, h, rfl⟩
    | cons a as ih =>
      intro bs vs h
      simp only [List.cons_append, evalZs] at h
      cases h1 : evalZ env a with
      | error f => rw [h1] at h; cases h
      | ok b =>
        cases h2 : evalZs env (as ++ bs) with
        | error f => rw [h1, h2] at h; cases h
        | ok ws =>
          rw [h1, h2] at h
          cases h
          obtain ⟨v1, v2, h3, h4, rfl⟩ := ih h2
          exact ⟨b :: v1, v2, by simp only [evalZs, h1, h3]; rfl, h4, rfl⟩
  have hf : ∀ {e : FExpr (ZMod p)}, evalZs env [.field e] = .ok vs → ∃ v, vs = [.field v] := by
    intro e h
    simp only [evalZs, evalZ] at h
    cases h1 : evalF env e with
    | error f => rw [h1] at h; cases h
    | ok v => rw [h1] at h; cases h; exact ⟨v, rfl⟩
  cases hc with
  | cast =>
    obtain ⟨v, rfl⟩ := hf h
    by_cases h0 : v = 0
    · subst h0; exact Or.inl ⟨_, .castBool g false, rfl⟩
    · by_cases h1 : v = 1
      · subst h1; exact Or.inl ⟨_, .castBool g true, rfl⟩
      · exact Or.inr (.castFault g v h0 h1)
  | @toBits _ _ e hl =>
    simp only [evalZs, evalZ] at h
    cases h1 : evalU env e with
    | error f => rw [h1] at h; cases h
    | ok v =>
      rw [h1] at h; cases h
      exact Or.inl ⟨_, .toBits g e.width v, by rw [List.length_map, length_bitsBE, hl]⟩
  | fromBits =>
    obtain ⟨bl, hl, rfl⟩ := hb h
    rw [← hl]
    exact Or.inl ⟨_, .fromBits g bl, rfl⟩
  | bitArrayLe hl =>
    obtain ⟨v1, v2, h1, h2, rfl⟩ := happ h
    obtain ⟨al, hal, rfl⟩ := hb h1
    obtain ⟨bl, hbl, rfl⟩ := hb h2
    rw [← hal]
    exact Or.inl ⟨_, .bitArrayLe al bl (by omega), rfl⟩
  | unpack hu =>
    obtain ⟨v, rfl⟩ := hf h
    obtain ⟨bl, hl, h1⟩ := hu v
    exact Or.inl ⟨_, .unpack _ v bl h1, by simp [hl]⟩

end Zok.Dce
