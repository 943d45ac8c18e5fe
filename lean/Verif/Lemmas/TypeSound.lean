import Verif.Spec.ZirWt
import Verif.Lemmas.PanicPres
import Mathlib.Data.Nat.Bitwise

/-
Well-typed ZIR does not get stuck.
-/

set_option linter.unusedSectionVars false

namespace Zok

/-- The value has the type. -/
def ZVal.HasTy {p : ℕ} : ZVal p → ZType → Prop
  | .field _, .field => True
  | .bool _, .bool => True
  | .uint w n, .uint w' => w = w' ∧ n < 2 ^ w
  | _, _ => False

namespace Ts
variable {p : ℕ} {Z : Type} [Fact p.Prime] {O : Oracle p Z} {Γ : TCtx} {env : ZEnv p}

/-- The environment has the types of the context. -/
def TEnv (Γ : TCtx) (env : ZEnv p) : Prop := ∀ x t, Γ x = some t → ∃ v, env x = some v ∧ v.HasTy t

/-- An outcome that is not stuck. -/
def Good {α : Type} (P : α → Prop) : Except Fault α → Prop
  | .ok a => P a
  | .error f => f ≠ .stuck

theorem Good.bind {α β : Type} {P : α → Prop} {Q : β → Prop} {x : Except Fault α} {f : α → Except Fault β} (h : Good P x)
    (h' : ∀ a, P a → Good Q (f a)) : Good Q (x >>= f) := by
  cases x with
  | ok a => exact h' a h
  | error e => exact h

theorem good_select {α : Type} {P : α → Prop} {l : List α} (h : ∀ a ∈ l, P a) (i : ℕ) : Good P (selectVal l i) := by
  unfold selectVal
  split
  · rename_i a ha; exact h a (List.mem_of_getElem? ha)
  · simp [Good]

theorem good_ite {α : Type} {P : α → Prop} {c : Prop} [Decidable c] {x y : Except Fault α} (h1 : c → Good P x) (h2 : ¬ c → Good P y) :
    Good P (if c then x else y) := by
  split
  · exact h1 ‹_›
  · exact h2 ‹_›

mutual
theorem soundF (henv : TEnv Γ env) : ∀ (e : FExpr (ZMod p)), WtF Γ e → Good (fun _ => True) (evalF env e)
  | .value _, _ => by simp only [evalF]; trivial
  | .ident x, h => by
    obtain ⟨v, h1, h2⟩ := henv x _ h
    cases v <;> simp only [ZVal.HasTy] at h2
    simp only [evalF, h1]; trivial
  | .select es i, h => by
    simp only [evalF]
    exact (soundU henv i h.2.2.1).bind fun _ _ => (soundFs henv es h.1).bind fun vs _ => good_select (fun _ _ => trivial) _
  | .add l r, h => by
    simp only [evalF]
    exact (soundF henv l h.1).bind fun _ _ => (soundF henv r h.2).bind fun _ _ => trivial
  | .sub l r, h => by
    simp only [evalF]
    exact (soundF henv l h.1).bind fun _ _ => (soundF henv r h.2).bind fun _ _ => trivial
  | .mult l r, h => by
    simp only [evalF]
    exact (soundF henv l h.1).bind fun _ _ => (soundF henv r h.2).bind fun _ _ => trivial
  | .div l r, h => by
    simp only [evalF]
    exact (soundF henv l h.1).bind fun _ _ => (soundF henv r h.2).bind fun _ _ => good_ite (fun _ => by simp [Good]) fun _ => trivial
  | .pow b e, h => by
    simp only [evalF]
    exact (soundF henv b h.1).bind fun _ _ => (soundLit henv e h.2).bind fun _ _ => trivial
  | .cond c t e, h => by
    simp only [evalF]
    exact (soundB henv c h.1).bind fun _ _ => (soundF henv t h.2.1).bind fun _ _ => (soundF henv e h.2.2).bind fun _ _ => trivial
  | .and _ _, h | .or _ _, h | .xor _ _, h | .leftShift _ _, h | .rightShift _ _, h => h.elim
theorem soundLit (henv : TEnv Γ env) : ∀ (e : UExpr (ZMod p)), IsLiteral32 e → Good (fun n => n < 2 ^ e.width) (evalU env e)
  | .mk w m i, h => by
    obtain ⟨⟨n, h1, h2⟩, -⟩ := h
    cases h1
    simp only [evalU, evalUI]; exact h2
theorem soundFs (henv : TEnv Γ env) : ∀ (es : List (FExpr (ZMod p))), WtFs Γ es → Good (fun _ => True) (evalFs env es)
  | [], _ => by simp only [evalFs]; trivial
  | e :: es, h => by
    simp only [evalFs]
    exact (soundF henv e h.1).bind fun _ _ => (soundFs henv es h.2).bind fun _ _ => trivial
theorem soundB (henv : TEnv Γ env) : ∀ (e : BExpr (ZMod p)), WtB Γ e → Good (fun _ => True) (evalB env e)
  | .value _, _ => by simp only [evalB]; trivial
  | .ident x, h => by
    obtain ⟨v, h1, h2⟩ := henv x _ h
    cases v <;> simp only [ZVal.HasTy] at h2
    simp only [evalB, h1]; trivial
  | .select es i, h => by
    simp only [evalB]
    exact (soundU henv i h.2.2.1).bind fun _ _ => (soundBs henv es h.1).bind fun vs _ => good_select (fun _ _ => trivial) _
  | .fieldLt l r, h => by
    simp only [evalB]
    exact (soundF henv l h.1).bind fun _ _ => (soundF henv r h.2).bind fun _ _ => good_ite (fun _ => trivial) fun _ => by simp [Good]
  | .fieldLe l r, h => by
    simp only [evalB]
    exact (soundF henv l h.1).bind fun _ _ => (soundF henv r h.2).bind fun _ _ => good_ite (fun _ => trivial) fun _ => by simp [Good]
  | .fieldEq l r, h => by
    simp only [evalB]
    exact (soundF henv l h.1).bind fun _ _ => (soundF henv r h.2).bind fun _ _ => trivial
  | .uintLt l r, h => by
    simp only [evalB]
    exact (soundU henv l h.1).bind fun _ _ => (soundU henv r h.2.1).bind fun _ _ => trivial
  | .uintLe l r, h => by
    simp only [evalB]
    exact (soundU henv l h.1).bind fun _ _ => (soundU henv r h.2.1).bind fun _ _ => trivial
  | .uintEq l r, h => by
    simp only [evalB]
    exact (soundU henv l h.1).bind fun _ _ => (soundU henv r h.2.1).bind fun _ _ => trivial
  | .boolEq l r, h => by
    simp only [evalB]
    exact (soundB henv l h.1).bind fun _ _ => (soundB henv r h.2).bind fun _ _ => trivial
  | .or l r, h => by
    simp only [evalB]
    exact (soundB henv l h.1).bind fun _ _ => (soundB henv r h.2).bind fun _ _ => trivial
  | .and l r, h => by
    simp only [evalB]
    exact (soundB henv l h.1).bind fun _ _ => (soundB henv r h.2).bind fun _ _ => trivial
  | .not e, h => by
    simp only [evalB]
    exact (soundB henv e h).bind fun _ _ => trivial
  | .cond c t e, h => by
    simp only [evalB]
    exact (soundB henv c h.1).bind fun _ _ => (soundB henv t h.2.1).bind fun _ _ => (soundB henv e h.2.2).bind fun _ _ => trivial
theorem soundBs (henv : TEnv Γ env) : ∀ (es : List (BExpr (ZMod p))), WtBs Γ es → Good (fun vs => vs.length = es.length) (evalBs env es)
  | [], _ => by simp only [evalBs]; rfl
  | e :: es, h => by
    simp only [evalBs]
    exact (soundB henv e h.1).bind fun _ _ => (soundBs henv es h.2).bind fun vs hv => by simpa [Good] using hv
theorem soundU (henv : TEnv Γ env) : ∀ (e : UExpr (ZMod p)), WtU Γ e → Good (fun n => n < 2 ^ e.width) (evalU env e)
  | .mk w _ i, h => by
    simp only [evalU]
    exact soundUI henv w i h.2.2
theorem soundUs (henv : TEnv Γ env) (w : ℕ) : ∀ (es : List (UExpr (ZMod p))), WtUs Γ w es → Good (fun vs => ∀ n ∈ vs, n < 2 ^ w) (evalUs env es)
  | [], _ => by simp only [evalUs]; simp [Good]
  | e :: es, h => by
    simp only [evalUs]
    exact (soundU henv e h.1.1).bind fun n hn => (soundUs henv w es h.2).bind fun vs hv => by
      rw [h.1.2] at hn
      simp only [Good, List.mem_cons, forall_eq_or_imp]
      exact ⟨hn, hv⟩
theorem soundUI (henv : TEnv Γ env) (w : ℕ) : ∀ (i : UInner (ZMod p)), WtUI Γ w i → Good (fun n => n < 2 ^ w) (evalUI env w i)
  | .value n, h => by simp only [evalUI]; exact h
  | .ident x, h => by
    obtain ⟨v, h1, h2⟩ := henv x _ h
    cases v <;> simp only [ZVal.HasTy] at h2
    obtain ⟨rfl, h2⟩ := h2
    simp only [evalUI, h1, if_true]; exact h2
  | .select es i, h => by
    simp only [evalUI]
    exact (soundU henv i h.2.2.2.1).bind fun _ _ => (soundUs henv w es h.1).bind fun vs hv => good_select hv _
  | .add l r, h => by
    simp only [evalUI]
    exact (soundU henv l h.1).bind fun n hn => (soundU henv r h.2.1).bind fun m hm => by
      rw [h.2.2.1] at hn; rw [h.2.2.2] at hm
      exact Nat.mod_lt _ (Nat.two_pow_pos w)
  | .sub l r, h => by
    simp only [evalUI]
    exact (soundU henv l h.1).bind fun n hn => (soundU henv r h.2.1).bind fun m hm => by
      rw [h.2.2.1] at hn; rw [h.2.2.2] at hm
      exact Nat.mod_lt _ (Nat.two_pow_pos w)
  | .mult l r, h => by
    simp only [evalUI]
    exact (soundU henv l h.1).bind fun n hn => (soundU henv r h.2.1).bind fun m hm => by
      rw [h.2.2.1] at hn; rw [h.2.2.2] at hm
      exact Nat.mod_lt _ (Nat.two_pow_pos w)
  | .xor l r, h => by
    simp only [evalUI]
    exact (soundU henv l h.1).bind fun n hn => (soundU henv r h.2.1).bind fun m hm => by
      rw [h.2.2.1] at hn; rw [h.2.2.2] at hm
      exact Nat.xor_lt_two_pow hn hm
  | .and l r, h => by
    simp only [evalUI]
    exact (soundU henv l h.1).bind fun n hn => (soundU henv r h.2.1).bind fun m hm => by
      rw [h.2.2.1] at hn; rw [h.2.2.2] at hm
      exact Nat.and_lt_two_pow _ hm
  | .or l r, h => by
    simp only [evalUI]
    exact (soundU henv l h.1).bind fun n hn => (soundU henv r h.2.1).bind fun m hm => by
      rw [h.2.2.1] at hn; rw [h.2.2.2] at hm
      exact Nat.or_lt_two_pow hn hm
  | .div l r, h => by
    simp only [evalUI]
    exact (soundU henv l h.1).bind fun n hn => (soundU henv r h.2.1).bind fun m hm => by
      rw [h.2.2.1] at hn
      exact good_ite (fun _ => by simp [Good]) fun _ => lt_of_le_of_lt (Nat.div_le_self _ _) hn
  | .rem l r, h => by
    simp only [evalUI]
    exact (soundU henv l h.1).bind fun n hn => (soundU henv r h.2.1).bind fun m hm => by
      rw [h.2.2.1] at hn
      exact good_ite (fun _ => by simp [Good]) fun _ => lt_of_le_of_lt (Nat.mod_le _ _) hn
  | .leftShift e b, h => by
    simp only [evalUI]
    exact (soundU henv e h.1).bind fun n hn => (soundLit henv b h.2.2).bind fun m hm => Nat.mod_lt _ (Nat.two_pow_pos w)
  | .rightShift e b, h => by
    simp only [evalUI]
    exact (soundU henv e h.1).bind fun n hn => (soundLit henv b h.2.2).bind fun m hm => by
      rw [h.2.1] at hn
      exact lt_of_le_of_lt (Nat.div_le_self _ _) hn
  | .not e, h => by
    simp only [evalUI]
    exact (soundU henv e h.1).bind fun n hn => by
      have := Nat.two_pow_pos w
      simp only [Good]; omega
  | .cond c t e, h => by
    simp only [evalUI]
    exact (soundB henv c h.1).bind fun b _ => (soundU henv t h.2.1).bind fun n hn => (soundU henv e h.2.2.1).bind fun m hm => by
      rw [h.2.2.2.1] at hn; rw [h.2.2.2.2] at hm
      cases b
      · exact hm
      · exact hn
end

theorem soundZ (henv : TEnv Γ env) (e : ZExpr (ZMod p)) (h : WtZ Γ e) : Good (fun v => v.HasTy e.ty) (evalZ env e) := by
  cases e with
  | field e => simp only [evalZ]; exact (soundF henv e h).bind fun _ _ => trivial
  | bool e => simp only [evalZ]; exact (soundB henv e h).bind fun _ _ => trivial
  | uint e => simp only [evalZ]; exact (soundU henv e h).bind fun _ hn => ⟨rfl, hn⟩

theorem soundZs (henv : TEnv Γ env) : ∀ (es : List (ZExpr (ZMod p))), (∀ e ∈ es, WtZ Γ e) →
    Good (fun vs => List.Forall₂ (fun v e => v.HasTy (ZExpr.ty e)) vs es) (evalZs env es)
  | [], _ => by simp only [evalZs]; exact .nil
  | e :: es, h => by
    simp only [evalZs]
    exact (soundZ henv e (h e (by simp))).bind fun v hv => (soundZs henv es fun e he => h e (by simp [he])).bind fun vs hvs => .cons hv hvs

theorem TEnv.set {σ : ZState p} (h : TEnv Γ σ.env) {x : ZId} {v : ZVal p} {t : ZType} (hv : v.HasTy t) : TEnv (Γ.set x t) (σ.set x v).env := by
  intro y u hy
  simp only [TCtx.set] at hy
  simp only [ZState.set]
  split at hy
  · cases hy; rename_i hh; exact ⟨v, if_pos hh, hv⟩
  · rename_i hh; rw [if_neg hh]; exact h y u hy

theorem TEnv.setAll : ∀ {xs : List ZId} {vs : List (ZVal p)} {ts : List ZType} {Γ : TCtx} {σ : ZState p}, TEnv Γ σ.env →
    vs.length = xs.length → List.Forall₂ ZVal.HasTy vs ts → TEnv (Γ.setAll xs ts) (σ.setAll xs vs).env
  | [], [], _, _, _, h, _, .nil => h
  | x :: xs, v :: vs, _, Γ, σ, h, hl, .cons hv hvs => TEnv.setAll (xs := xs) (σ := σ.set x v) (h.set hv) (by simpa using hl) hvs
  | [], _ :: _, _, _, _, _, hl, _ => by simp at hl
  | _ :: _, [], _, _, _, _, hl, _ => by simp at hl

theorem outs_set {σ : ZState p} {x : ZId} {v : ZVal p} : (σ.set x v).outs = σ.outs := rfl

theorem forall₂_bools : ∀ (bl : List Bool), List.Forall₂ ZVal.HasTy (bl.map (ZVal.bool (p := p))) (List.replicate bl.length .bool)
  | [] => .nil
  | _ :: bl => by rw [List.map_cons, List.length_cons, List.replicate_succ]; exact .cons trivial (forall₂_bools bl)

theorem forall₂_fields : ∀ (ns : List (ZMod p)) (xs : List ZId), ns.length = xs.length →
    List.Forall₂ ZVal.HasTy (ns.map (ZVal.field (p := p))) (xs.map fun _ => .field)
  | [], [], _ => .nil
  | _ :: ns, _ :: xs, h => .cons trivial (forall₂_fields ns xs (by simpa using h))
  | [], _ :: _, h | _ :: _, [], h => by simp at h

theorem soundEmbed {embed : Embed} {g : List ℕ} {args : List (ZExpr (ZMod p))} {ts : List ZType} (henv : TEnv Γ env)
    (h : WtEmbed Γ embed g args ts) {vs : List (ZVal p)} (hv : evalZs env args = .ok vs) {r : Except Fault (List (ZVal p))}
    (hr : EmbedRes O embed g vs r) : Good (fun rs => rs.length = ts.length → List.Forall₂ ZVal.HasTy rs ts) r := by
  cases hr with
  | castBool b => cases h; exact fun _ => .cons trivial .nil
  | castFault => simp [Good]
  | toBits g w n =>
    cases h
    intro hl
    have := forall₂_bools (p := p) (bitsBE w n)
    rw [← List.length_map (as := bitsBE w n) (f := ZVal.bool (p := p)), hl, List.length_replicate] at this
    exact this
  | fromBits g bl =>
    generalize he : Embed.uFromBits bl.length = E at h
    cases h with
    | cast | toBits | bitArrayLe | unpack => simp at he
    | fromBits _ _ =>
    injection he with he
    rw [← he]
    exact fun _ => .cons ⟨rfl, natBE_lt bl⟩ .nil
  | bitArrayLe al bl =>
    generalize he : [al.length] = E at h
    cases h
    exact fun _ => .cons trivial .nil
  | unpack n x bl =>
    cases h
    intro hl
    have := forall₂_bools (p := p) bl
    rw [← List.length_map (as := bl) (f := ZVal.bool (p := p)), hl, List.length_replicate] at this
    exact this

theorem soundAsm {s : ZAsm (ZMod p) Z} {Γ' : TCtx} {σ : ZState p} {r} (henv : TEnv Γ σ.env) (h : WtAsm Γ s Γ') (hx : ExecAsm O σ s r) :
    Good (fun σ' => TEnv Γ' σ'.env) r := by
  cases h with
  | assignment h1 =>
    cases hx with
    | assignment h2 h3 h4 => exact henv.setAll (by simpa using h4) (forall₂_fields _ _ h4)
  | @constraint l r _ h1 h2 =>
    have e1 := soundF henv l h1
    have e2 := soundF henv r h2
    cases hx with
    | ok _ _ => exact henv
    | failed => simp [Good]
    | faultL h => rw [h] at e1; exact e1
    | faultR _ h => rw [h] at e2; exact e2

theorem soundAsms {ss : List (ZAsm (ZMod p) Z)} {σ : ZState p} {r} (hx : ExecAsms O σ ss r) : ∀ {Γ Γ' : TCtx}, TEnv Γ σ.env →
    WtAsms Γ ss Γ' → Good (fun σ' => TEnv Γ' σ'.env) r := by
  induction hx with
  | nil => intro Γ Γ' henv h; cases h; exact henv
  | fault h1 => intro Γ Γ' henv h; cases h with | cons h2 h3 => have := soundAsm henv h2 h1; exact this
  | cons h1 _ ih => intro Γ Γ' henv h; cases h with | cons h2 h3 => exact ih (soundAsm henv h2 h1) h3

theorem conjunct_wt {c e : BExpr (ZMod p)} (h : Conjunct c e) : WtB Γ e → WtB Γ c := by
  induction h with
  | self => exact id
  | left _ ih => exact fun h => ih h.1
  | right _ ih => exact fun h => ih h.2

mutual
theorem soundStmt : ∀ (s : ZStmt (ZMod p) Z) {Γ Γ' : TCtx} {σ : ZState p} {r}, TEnv Γ σ.env → WtStmt Γ s Γ' → Exec O σ s r →
    Good (fun σ' => TEnv Γ' σ'.env) r
  | .ret es, _, _, σ, _, henv, h, hx => by
    cases h with
    | ret h =>
      have := soundZs henv es h
      cases hx with
      | ret _ => exact henv
      | retFault h1 => rw [h1] at this; exact this
  | .definition x e, _, _, σ, _, henv, h, hx => by
    cases h with
    | definition h =>
      have := soundZ henv e h
      cases hx with
      | definition h1 => rw [h1] at this; exact henv.set this
      | definitionFault h1 => rw [h1] at this; exact this
  | .ifElse c t e, _, _, σ, _, henv, h, hx => by
    have ih1 := fun {Γ Γ' : TCtx} {σ : ZState p} {r} => soundStmts t (Γ := Γ) (Γ' := Γ') (σ := σ) (r := r)
    have ih2 := fun {Γ Γ' : TCtx} {σ : ZState p} {r} => soundStmts e (Γ := Γ) (Γ' := Γ') (σ := σ) (r := r)
    cases h with
    | ifElse h1 h2 h3 =>
      have := soundB henv c h1
      cases hx with
      | ifElse _ h4 h5 => exact ih2 (ih1 henv h2 h4) h3 h5
      | ifFault h4 => rw [h4] at this; exact this
      | thenFault _ h4 => have := ih1 henv h2 h4; exact this
  | .assertion e err, _, _, σ, _, henv, h, hx => by
    cases h with
    | assertion h =>
      cases hx with
      | assertOk _ => exact henv
      | assertFailed _ => simp [Good]
      | assertFault h1 h2 =>
        have := soundB henv _ (conjunct_wt h1 h)
        rw [h2] at this; exact this
  | .multiDef xs embed g args, _, _, σ, _, henv, h, hx => by
    cases h with
    | multiDef h1 h2 h3 =>
      have e1 := soundZs henv args (Px.embed_args h3)
      cases hx with
      | multiDef h4 h5 h6 =>
        exact henv.setAll h6 (soundEmbed henv h3 h4 h5 (h6.trans h2))
      | embedFault h4 h5 => have := soundEmbed henv h3 h4 h5; exact this
      | argsFault h4 => rw [h4] at e1; exact e1
  | .log es, _, _, σ, _, henv, h, hx => by
    cases h with
    | log h =>
      have := soundZs henv es.flatten h
      cases hx with
      | log _ => exact henv
      | logFault h1 => rw [h1] at this; exact this
  | .assembly ss, _, _, σ, _, henv, h, hx => by
    cases h with
    | assembly h => cases hx with | assembly hx => exact soundAsms hx henv h
theorem soundStmts : ∀ (ss : List (ZStmt (ZMod p) Z)) {Γ Γ' : TCtx} {σ : ZState p} {r}, TEnv Γ σ.env → WtStmts Γ ss Γ' → ExecL O σ ss r →
    Good (fun σ' => TEnv Γ' σ'.env) r
  | [], _, _, _, _, henv, h, hx => by cases h; cases hx; exact henv
  | s :: ss, _, _, _, _, henv, h, hx => by
    have ih1 := fun {Γ Γ' : TCtx} {σ : ZState p} {r} => soundStmt s (Γ := Γ) (Γ' := Γ') (σ := σ) (r := r)
    have ih2 := fun {Γ Γ' : TCtx} {σ : ZState p} {r} => soundStmts ss (Γ := Γ) (Γ' := Γ') (σ := σ) (r := r)
    cases h with
    | cons h1 h2 =>
      cases hx with
      | fault h3 => have := ih1 henv h1 h3; exact this
      | cons h3 h4 => exact ih2 (ih1 henv h1 h3) h2 h4
end

end Ts
end Zok
