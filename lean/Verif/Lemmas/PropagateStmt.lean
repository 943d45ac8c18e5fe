import Verif.Lemmas.PropagateExpr
import Verif.Lemmas.Bits

/- Constant propagation preserves behaviours: statements and functions. -/

namespace Zok.Prop'
open Zok
set_option linter.unusedSectionVars false
variable {p : ℕ} [Fact p.Prime] {Z : Type}

/-- The states before and after propagation. -/
structure Sim (c : Consts p) (σ σ' : ZState p) : Prop where
  agree : Agree False c σ.env σ'.env
  outs : σ'.outs = σ.outs
  ok : UintsFit σ.env

/-- What is assumed of the folding of hints: folding a hint preserves the outputs it can have. -/
structure HintOk (ar : Z → ℕ) (H : HintFolder p Z) (O O' : Oracle p Z) : Prop where
  arity : ∀ c f args vs, H c f args = .ok (.values vs) → vs.length = ar f
  unpack : O'.unpack = O.unpack
  fwd : ∀ c env env' f args ins outs, Agree False c env env' → UintsFit env → evalIds env args = some ins →
    O.hint f (ins.map ZVal.enc) outs → H c f args = .ok (.values outs) ∨
      ∃ f' args' ins', H c f args = .ok (.residual f' args') ∧ evalIds env' args' = some ins' ∧
        O'.hint f' (ins'.map ZVal.enc) outs
  values : ∀ c env env' f args outs, Agree False c env env' → UintsFit env → H c f args = .ok (.values outs) →
    ∃ ins, evalIds env args = some ins ∧ O.hint f (ins.map ZVal.enc) outs
  residual : ∀ c env env' f args f' args' ins' outs, Agree False c env env' → UintsFit env →
    H c f args = .ok (.residual f' args') → evalIds env' args' = some ins' → O'.hint f' (ins'.map ZVal.enc) outs →
    ∃ ins, evalIds env args = some ins ∧ O.hint f (ins.map ZVal.enc) outs

section
variable {c : Consts p} {env env' : ZEnv p}

theorem propZ_ok (ha : Agree False c env env') (he : UintsFit env) (e : ZExpr (ZMod p)) (v : ZVal p) (ht : TyZ e)
    (h : evalZ env e = .ok v) : ∃ e', propZ c e = .ok e' ∧ evalZ env' e' = .ok v := by
  cases e with
  | field e =>
    simp only [evalZ] at h
    obtain ⟨a, h1, h⟩ := exc_bind_ok h
    cases h
    obtain ⟨e', h2, _, h3⟩ := propF_ok ha he e a ht h1
    exact ⟨.field e', by simp only [propZ, h2, exc_ok_bind], by simp only [evalZ, h3.2.false_eq, exc_ok_bind]⟩
  | bool e =>
    simp only [evalZ] at h
    obtain ⟨a, h1, h⟩ := exc_bind_ok h
    cases h
    obtain ⟨e', h2, _, h3⟩ := propB_ok ha he e a ht h1
    exact ⟨.bool e', by simp only [propZ, h2, exc_ok_bind], by simp only [evalZ, h3.2.false_eq, exc_ok_bind]⟩
  | uint e =>
    simp only [evalZ] at h
    obtain ⟨a, h1, h⟩ := exc_bind_ok h
    cases h
    obtain ⟨e', h2, _, hw, h3⟩ := propU_ok ha he e a ht h1
    exact ⟨.uint e', by simp only [propZ, h2, exc_ok_bind], by simp only [evalZ, h3.2.false_eq, exc_ok_bind, hw]⟩

theorem propZs_ok (ha : Agree False c env env') (he : UintsFit env) : ∀ (es : List (ZExpr (ZMod p))) (vs : List (ZVal p)),
    (∀ e ∈ es, TyZ e) → evalZs env es = .ok vs → ∃ es', propZs c es = .ok es' ∧ evalZs env' es' = .ok vs
  | [], vs, _, h => ⟨[], rfl, h⟩
  | e :: es, vs, ht, h => by
    simp only [evalZs] at h
    obtain ⟨v, hv, h⟩ := exc_bind_ok h
    obtain ⟨vs', hvs, h⟩ := exc_bind_ok h
    cases h
    obtain ⟨e', h1, h2⟩ := propZ_ok ha he e v (ht e (by simp)) hv
    obtain ⟨es', h3, h4⟩ := propZs_ok ha he es vs' (fun x hx => ht x (by simp [hx])) hvs
    exact ⟨e' :: es', by simp only [propZs, h1, h3, exc_ok_bind], by simp only [evalZs, h2, h4, exc_ok_bind]⟩

theorem evalZs_append_ok {env : ZEnv p} : ∀ (l m : List (ZExpr (ZMod p))) (vs : List (ZVal p)),
    evalZs env (l ++ m) = .ok vs → ∃ v1 v2, evalZs env l = .ok v1 ∧ evalZs env m = .ok v2 ∧ vs = v1 ++ v2
  | [], m, vs, h => ⟨[], vs, rfl, h, rfl⟩
  | e :: l, m, vs, h => by
    simp only [List.cons_append, evalZs] at h
    obtain ⟨v, hv, h⟩ := exc_bind_ok h
    obtain ⟨vs', hvs, h⟩ := exc_bind_ok h
    cases h
    obtain ⟨v1, v2, h1, h2, h3⟩ := evalZs_append_ok l m vs' hvs
    exact ⟨v :: v1, v2, by simp only [evalZs, hv, h1, exc_ok_bind], h2, by rw [h3]; rfl⟩

theorem evalZs_append {env : ZEnv p} : ∀ (l m : List (ZExpr (ZMod p))) (v1 v2 : List (ZVal p)),
    evalZs env l = .ok v1 → evalZs env m = .ok v2 → evalZs env (l ++ m) = .ok (v1 ++ v2)
  | [], m, v1, v2, h1, h2 => by simp only [evalZs] at h1; cases h1; exact h2
  | e :: l, m, v1, v2, h1, h2 => by
    simp only [evalZs] at h1
    obtain ⟨v, hv, h⟩ := exc_bind_ok h1
    obtain ⟨vs', hvs, h⟩ := exc_bind_ok h
    cases h
    simp only [List.cons_append, evalZs, hv, exc_ok_bind, evalZs_append l m vs' v2 hvs h2]

theorem propZss_ok (ha : Agree False c env env') (he : UintsFit env) : ∀ (es : List (List (ZExpr (ZMod p))))
    (vs : List (ZVal p)), (∀ e ∈ es.flatten, TyZ e) → evalZs env es.flatten = .ok vs →
    ∃ es', propZss c es = .ok es' ∧ evalZs env' es'.flatten = .ok vs
  | [], vs, _, h => ⟨[], rfl, h⟩
  | e :: es, vs, ht, h => by
    rw [List.flatten_cons] at h
    obtain ⟨v1, v2, h1, h2, h3⟩ := evalZs_append_ok _ _ _ h
    obtain ⟨e', h4, h5⟩ := propZs_ok ha he e v1 (fun x hx => ht x (by simp [hx])) h1
    obtain ⟨es', h6, h7⟩ := propZss_ok ha he es v2 (fun x hx => ht x (by rw [List.flatten_cons]; exact List.mem_append_right _ hx)) h2
    refine ⟨e' :: es', by simp only [propZss, h4, h6, exc_ok_bind], ?_⟩
    rw [List.flatten_cons, h3]; exact evalZs_append _ _ _ _ h5 h7

theorem zval_eq {e : ZExpr (ZMod p)} {v : ZVal p} (h : zval? e = some v) : evalZ env e = .ok v := by
  cases e with
  | field e =>
    simp only [zval?, Option.map_eq_some_iff] at h
    obtain ⟨a, h1, rfl⟩ := h
    rw [fval_eq h1]; simp only [evalZ, evalF]; rfl
  | bool e =>
    simp only [zval?, Option.map_eq_some_iff] at h
    obtain ⟨a, h1, rfl⟩ := h
    rw [bval_eq h1]; simp only [evalZ, evalB]; rfl
  | uint e =>
    obtain ⟨w, m, i⟩ := e
    simp only [zval?, Option.map_eq_some_iff, UExpr.inner] at h
    obtain ⟨a, h1, rfl⟩ := h
    rw [uval_eq h1]; simp only [evalZ, evalU, evalUI]; rfl

theorem agree_insert (ha : Agree False c env env') (x : ZId) (v : ZVal p) :
    Agree False (c.insert x v) (fun y => if y = x then some v else env y) env' where
  const y w h := by
    simp only [Consts.insert] at h
    split at h
    · rename_i hy; rw [if_pos hy]; exact h
    · rename_i hy; rw [if_neg hy]; exact ha.const _ _ h
  other y h := by
    simp only [Consts.insert] at h
    split at h
    · cases h
    · rename_i hy; rw [if_neg hy]; exact ha.other _ h

theorem agree_remove (ha : Agree False c env env') (x : ZId) (v : ZVal p) :
    Agree False (c.remove x) (fun y => if y = x then some v else env y) (fun y => if y = x then some v else env' y) where
  const y w h := by
    simp only [Consts.remove] at h
    split at h
    · cases h
    · rename_i hy; rw [if_neg hy]; exact ha.const _ _ h
  other y h := by
    simp only [Consts.remove] at h
    split at h
    · rename_i hy; rw [if_pos hy, if_pos hy]; exact .inl rfl
    · rename_i hy; rw [if_neg hy, if_neg hy]; exact ha.other _ h

theorem envOk_set (he : UintsFit env) (x : ZId) (v : ZVal p) (hv : ∀ w n, v = .uint w n → n < 2 ^ w) :
    UintsFit (fun y => if y = x then some v else env y) := by
  intro y w n h
  dsimp only at h
  split at h
  · cases h; exact hv _ _ rfl
  · exact he _ _ _ h

/-- Variables that are not constants can be removed from the map. -/
theorem removeAll_of_none : ∀ (xs : List ZId) (c : Consts p), (∀ x ∈ xs, c x = none) → c.removeAll xs = c
  | [], c, _ => rfl
  | x :: xs, c, h => by
    have : c.remove x = c := by
      funext y; simp only [Consts.remove]
      split
      · rename_i hy; rw [hy, h x (by simp)]
      · rfl
    rw [Consts.removeAll, this]; exact removeAll_of_none xs c fun y hy => h y (by simp [hy])
end

theorem sim_setAll : ∀ (xs : List ZId) (vs : List (ZVal p)) (c : Consts p) (σ σ' : ZState p), Sim c σ σ' →
    vs.length = xs.length → (∀ v ∈ vs, ∀ w n, v = .uint w n → n < 2 ^ w) →
    Sim (c.removeAll xs) (σ.setAll xs vs) (σ'.setAll xs vs)
  | [], vs, c, σ, σ', h, hl, _ => by cases vs <;> simpa [ZState.setAll, Consts.removeAll] using h
  | x :: xs, [], c, σ, σ', h, hl, _ => by simp at hl
  | x :: xs, v :: vs, c, σ, σ', h, hl, hv => by
    simp only [ZState.setAll, Consts.removeAll]
    refine sim_setAll xs vs _ _ _ ⟨agree_remove h.agree x v, h.outs, envOk_set h.ok x v (hv v (by simp))⟩ (by simpa using hl) ?_
    intro w hw; exact hv w (by simp [hw])

theorem sim_insertAll : ∀ (xs : List ZId) (vs : List (ZMod p)) (c : Consts p) (σ σ' : ZState p), Sim c σ σ' →
    vs.length = xs.length → Sim (c.insertAll xs vs) (σ.setAll xs (vs.map .field)) σ'
  | [], vs, c, σ, σ', h, hl => by cases vs <;> simpa [ZState.setAll, Consts.insertAll] using h
  | x :: xs, [], c, σ, σ', h, hl => by simp at hl
  | x :: xs, v :: vs, c, σ, σ', h, hl => by
    simp only [ZState.setAll, Consts.insertAll, List.map_cons]
    exact sim_insertAll xs vs _ _ _ ⟨agree_insert h.agree x _, h.outs, envOk_set h.ok x _ (by intro w n h; cases h)⟩ (by simpa using hl)

theorem embedRes_ok {O : Oracle p Z} {e : Embed} {g : List ℕ} {vs rs : List (ZVal p)} (h : EmbedRes O e g vs (.ok rs)) :
    ∀ v ∈ rs, ∀ w n, v = .uint w n → n < 2 ^ w := by
  cases h with
  | castBool => simp
  | toBits => intro v hv w n h; obtain ⟨_, _, rfl⟩ := List.mem_map.1 hv; cases h
  | fromBits g bl => intro v hv w n h; simp at hv; subst hv; cases h; exact Zok.natBE_lt bl
  | bitArrayLe => simp
  | unpack => intro v hv w n h; obtain ⟨_, _, rfl⟩ := List.mem_map.1 hv; cases h

theorem embedRes_congr {O O' : Oracle p Z} (hu : O'.unpack = O.unpack) {e : Embed} {g : List ℕ} {vs : List (ZVal p)}
    {r : Except Fault (List (ZVal p))} (h : EmbedRes O e g vs r) : EmbedRes O' e g vs r := by
  cases h with
  | castBool g b => exact .castBool g b
  | castFault g x h1 h2 => exact .castFault g x h1 h2
  | toBits g w n => exact .toBits g w n
  | fromBits g bl => exact .fromBits g bl
  | bitArrayLe al bl h => exact .bitArrayLe al bl h
  | unpack n x bl h => exact .unpack n x bl (by rw [hu]; exact h)

/-! ### Assembly -/
section
variable {ar : Z → ℕ} {H : HintFolder p Z} {O O' : Oracle p Z} {err : String → RuntimeError}

theorem execAsms_append {σ σ' : ZState p} {s t : List (ZAsm (ZMod p) Z)} {r : Except Fault (ZState p)}
    (h1 : ExecAsms O σ s (.ok σ')) (h2 : ExecAsms O σ' t r) : ExecAsms O σ (s ++ t) r := by
  induction s generalizing σ with
  | nil => cases h1; exact h2
  | cons a s ih => cases h1 with | cons h3 h4 => exact .cons h3 (ih h4)

theorem execAsms_append_inv {s t : List (ZAsm (ZMod p) Z)} : ∀ {σ : ZState p} {r : Except Fault (ZState p)},
    ExecAsms O σ (s ++ t) r → (∃ σ', ExecAsms O σ s (.ok σ') ∧ ExecAsms O σ' t r) ∨
      ∃ f, r = .error f ∧ ExecAsms O σ s (.error f) := by
  induction s with
  | nil => intro σ r h; exact .inl ⟨σ, .nil, h⟩
  | cons a s ih =>
    intro σ r h
    cases h with
    | fault h => exact .inr ⟨_, rfl, .fault h⟩
    | cons h1 h2 =>
      rcases ih h2 with ⟨σ', h3, h4⟩ | ⟨f, h3, h4⟩
      · exact .inl ⟨σ', .cons h1 h3, h4⟩
      · exact .inr ⟨f, h3, .cons h1 h4⟩

theorem fieldUint (outs : List (ZMod p)) : ∀ v ∈ outs.map ZVal.field, ∀ w n, v = .uint w n → n < 2 ^ w := by
  intro v hv w n h; obtain ⟨_, _, rfl⟩ := List.mem_map.1 hv; cases h

/-- The folded constraint of an assembly block. -/
theorem propEq_ok {c : Consts p} {env env' : ZEnv p} (ha : Agree False c env env') (he : UintsFit env)
    {l r : FExpr (ZMod p)} {a b : ZMod p} (tl : TyF l) (tr : TyF r) (h1 : evalF env l = .ok a)
    (h2 : evalF env r = .ok b) : ∃ l' r' q, propF c l = .ok l' ∧ propF c r = .ok r' ∧ evalF env' l' = .ok a ∧
      evalF env' r' = .ok b ∧ propB c (.fieldEq l' r') = .ok q ∧ evalB env q = .ok (decide (a = b)) := by
  obtain ⟨l', h3, t3, h4⟩ := propF_ok ha he l a tl h1
  obtain ⟨r', h5, t5, h6⟩ := propF_ok ha he r b tr h2
  have : evalB env (.fieldEq l' r') = .ok (decide (a = b)) := by
    simp only [evalB, h4.1.false_eq, h6.1.false_eq, exc_ok_bind]
  obtain ⟨q, h7, _, h8⟩ := propB_ok ha he (.fieldEq l' r') _ (by simp only [TyB]; exact ⟨t3, t5⟩) this
  exact ⟨l', r', q, h3, h5, h4.2.false_eq, h6.2.false_eq, h7, h8.1.false_eq⟩

theorem propAsm_fwd (hH : HintOk ar H O O') {c : Consts p} {σ σ' σ₁ : ZState p} (hs : Sim c σ σ') {s : ZAsm (ZMod p) Z}
    (ht : TyAsm ar s) (h : ExecAsm O σ s (.ok σ₁)) : ∃ c' ss, propAsm H err c s = .ok (c', ss) ∧
      ∃ σ₁', ExecAsms O' σ' ss (.ok σ₁') ∧ Sim c' σ₁ σ₁' := by
  cases h with
  | @assignment xs f args ins outs h1 h2 h3 =>
    rcases hH.fwd c _ _ f args ins outs hs.agree hs.ok h1 h2 with h | ⟨f', args', ins', h, h4, h5⟩
    · refine ⟨c.insertAll xs outs, [], by simp only [propAsm, h, exc_ok_bind], σ', .nil, sim_insertAll _ _ _ _ _ hs h3⟩
    · exact ⟨c.removeAll xs, [.assignment xs f' args'], by simp only [propAsm, h, exc_ok_bind], _,
        .cons (.assignment h4 h5 h3) .nil, sim_setAll _ _ _ _ _ hs (by simpa using h3) (fieldUint outs)⟩
  | @ok l r info v h1 h2 =>
    obtain ⟨l', r', q, h3, h5, h4, h6, h7, h8⟩ := propEq_ok hs.agree hs.ok ht.1 ht.2 h1 h2
    simp only [propAsm, h3, h5, h7, exc_ok_bind]
    split
    · exact ⟨c, [], rfl, σ', .nil, hs⟩
    · simp [evalB] at h8
    · exact ⟨c, _, rfl, σ', .cons (.ok h4 h6) .nil, hs⟩

theorem propAsms_fwd (hH : HintOk ar H O O') : ∀ {ss : List (ZAsm (ZMod p) Z)} {c : Consts p} {σ σ' σ₁ : ZState p},
    Sim c σ σ' → (∀ s ∈ ss, TyAsm ar s) → ExecAsms O σ ss (.ok σ₁) → ∃ c' ss', propAsms H err c ss = .ok (c', ss') ∧
      ∃ σ₁', ExecAsms O' σ' ss' (.ok σ₁') ∧ Sim c' σ₁ σ₁'
  | [], c, σ, σ', σ₁, hs, _, h => by cases h; exact ⟨c, [], rfl, σ', .nil, hs⟩
  | s :: ss, c, σ, σ', σ₁, hs, ht, h => by
    cases h with
    | cons h1 h2 =>
      obtain ⟨c₁, s', h3, σ₂', h4, hs₁⟩ := propAsm_fwd (err := err) hH hs (ht s (by simp)) h1
      obtain ⟨c₂, ss', h5, σ₃', h6, hs₂⟩ := propAsms_fwd hH hs₁ (fun x hx => ht x (by simp [hx])) h2
      exact ⟨c₂, s' ++ ss', by simp only [propAsms, h3, h5, exc_ok_bind], σ₃', execAsms_append h4 h6, hs₂⟩

/-- The outcomes of the source for an outcome of the propagated program: the same, or a fault. -/
def Back (c : Consts p) (R : Except Fault (ZState p) → Prop) (r' : Except Fault (ZState p)) : Prop :=
  (∃ f, R (.error f)) ∨ ∃ σ₁ σ₁', r' = .ok σ₁' ∧ R (.ok σ₁) ∧ Sim c σ₁ σ₁'

theorem propAsm_bwd (hH : HintOk ar H O O') {c c' : Consts p} {σ σ' : ZState p} (hs : Sim c σ σ') {s : ZAsm (ZMod p) Z}
    (ht : TyAsm ar s) {ss : List (ZAsm (ZMod p) Z)} (hp : propAsm H err c s = .ok (c', ss)) {r' : Except Fault (ZState p)}
    (h : ExecAsms O' σ' ss r') : Back c' (ExecAsm O σ s) r' := by
  cases s with
  | assignment xs f args =>
    simp only [propAsm] at hp
    obtain ⟨hf, h1, hp⟩ := exc_bind_ok hp
    cases hf with
    | values vs =>
      simp only [Except.ok.injEq, Prod.mk.injEq] at hp
      obtain ⟨rfl, rfl⟩ := hp
      cases h
      obtain ⟨ins, h2, h3⟩ := hH.values c _ _ f args vs hs.agree hs.ok h1
      have hl : vs.length = xs.length := (hH.arity c f args vs h1).trans ht.symm
      exact .inr ⟨_, _, rfl, .assignment h2 h3 hl, sim_insertAll _ _ _ _ _ hs hl⟩
    | residual f' args' =>
      simp only [Except.ok.injEq, Prod.mk.injEq] at hp
      obtain ⟨rfl, rfl⟩ := hp
      cases h with
      | fault h => cases h
      | cons h h' =>
        cases h'
        cases h with
        | assignment h2 h3 h4 =>
          obtain ⟨ins, h5, h6⟩ := hH.residual c _ _ f args f' args' _ _ hs.agree hs.ok h1 h2 h3
          exact .inr ⟨_, _, rfl, .assignment h5 h6 h4, sim_setAll _ _ _ _ _ hs (by simpa using h4) (fieldUint _)⟩
  | constraint l r info =>
    cases h1 : evalF σ.env l with
    | error f => exact .inl ⟨f, .faultL h1⟩
    | ok a =>
      cases h2 : evalF σ.env r with
      | error f => exact .inl ⟨f, .faultR h1 h2⟩
      | ok b =>
        by_cases hab : a = b
        · subst hab
          obtain ⟨l', r', q, h3, h5, h4, h6, h7, h8⟩ := propEq_ok hs.agree hs.ok ht.1 ht.2 h1 h2
          simp only [propAsm, h3, h5, h7, exc_ok_bind] at hp
          split at hp
          · cases hp; cases h; exact .inr ⟨σ, σ', rfl, .ok h1 h2, hs⟩
          · cases hp
          · cases hp
            cases h with
            | fault h =>
              cases h with
              | failed h h' h'' => rw [h4] at h; rw [h6] at h'; cases h; cases h'; exact absurd rfl h''
              | faultL h => rw [h4] at h; cases h
              | faultR h h' => rw [h6] at h'; cases h'
            | cons h h' =>
              cases h'
              cases h with
              | ok => exact .inr ⟨σ, σ', rfl, .ok h1 h2, hs⟩
        · exact .inl ⟨_, .failed h1 h2 hab⟩

theorem propAsms_bwd (hH : HintOk ar H O O') : ∀ {s : List (ZAsm (ZMod p) Z)} {c c' : Consts p} {σ σ' : ZState p},
    Sim c σ σ' → (∀ x ∈ s, TyAsm ar x) → ∀ {ss : List (ZAsm (ZMod p) Z)}, propAsms H err c s = .ok (c', ss) →
    ∀ {r' : Except Fault (ZState p)}, ExecAsms O' σ' ss r' → Back c' (ExecAsms O σ s) r'
  | [], c, c', σ, σ', hs, _, ss, hp, r', h => by
    simp only [propAsms, Except.ok.injEq, Prod.mk.injEq] at hp
    obtain ⟨rfl, rfl⟩ := hp
    cases h; exact .inr ⟨σ, σ', rfl, .nil, hs⟩
  | s :: s', c, c', σ, σ', hs, ht, ss, hp, r', h => by
    simp only [propAsms] at hp
    obtain ⟨⟨c₁, s₁⟩, h1, hp⟩ := exc_bind_ok hp
    obtain ⟨⟨c₂, s₂⟩, h2, hp⟩ := exc_bind_ok hp
    simp only [Except.ok.injEq, Prod.mk.injEq] at hp
    obtain ⟨rfl, rfl⟩ := hp
    rcases execAsms_append_inv h with ⟨σ₁', h3, h4⟩ | ⟨f, rfl, h3⟩
    · rcases propAsm_bwd hH hs (ht s (by simp)) h1 h3 with ⟨f, hf⟩ | ⟨σ₁, σ₁'', he, h5, hs₁⟩
      · exact .inl ⟨f, .fault hf⟩
      · cases he
        rcases propAsms_bwd hH hs₁ (fun x hx => ht x (by simp [hx])) h2 h4 with ⟨f, hf⟩ | ⟨σ₂, σ₂', he, h6, hs₂⟩
        · exact .inl ⟨f, .cons h5 hf⟩
        · exact .inr ⟨σ₂, σ₂', he, .cons h5 h6, hs₂⟩
    · rcases propAsm_bwd hH hs (ht s (by simp)) h1 h3 with ⟨f, hf⟩ | ⟨_, _, he, _⟩
      · exact .inl ⟨f, .fault hf⟩
      · cases he

/-! ### Statements -/

theorem execL_append {s t : List (ZStmt (ZMod p) Z)} : ∀ {σ σ' : ZState p} {r : Except Fault (ZState p)},
    ExecL O σ s (.ok σ') → ExecL O σ' t r → ExecL O σ (s ++ t) r := by
  induction s with
  | nil => intro σ σ' r h1 h2; cases h1; exact h2
  | cons a s ih => intro σ σ' r h1 h2; cases h1 with | cons h3 h4 => exact .cons h3 (ih h4 h2)

theorem execL_append_inv {s t : List (ZStmt (ZMod p) Z)} : ∀ {σ : ZState p} {r : Except Fault (ZState p)},
    ExecL O σ (s ++ t) r → (∃ σ', ExecL O σ s (.ok σ') ∧ ExecL O σ' t r) ∨
      ∃ f, r = .error f ∧ ExecL O σ s (.error f) := by
  induction s with
  | nil => intro σ r h; exact .inl ⟨σ, .nil, h⟩
  | cons a s ih =>
    intro σ r h
    cases h with
    | fault h => exact .inr ⟨_, rfl, .fault h⟩
    | cons h1 h2 =>
      rcases ih h2 with ⟨σ', h3, h4⟩ | ⟨f, h3, h4⟩
      · exact .inl ⟨σ', .cons h1 h3, h4⟩
      · exact .inr ⟨f, h3, .cons h1 h4⟩

/-- The variables assigned in the state. -/
def Dom (K : ZId → Prop) (σ : ZState p) : Prop := ∀ x, σ.env x ≠ none → K x

theorem dom_set {K : ZId → Prop} {σ : ZState p} {x : ZId} {v : ZVal p} {l : List ZId} (h : Dom K σ) (hx : x ∈ l) :
    Dom (fun y => K y ∨ y ∈ l) (σ.set x v) := by
  intro y hy
  simp only [ZState.set] at hy
  split at hy
  · rename_i e; subst e; exact .inr hx
  · exact .inl (h y hy)

theorem dom_setAll : ∀ {xs : List ZId} {vs : List (ZVal p)} {K : ZId → Prop} {σ : ZState p} {l : List ZId}, Dom K σ →
    (∀ x ∈ xs, K x ∨ x ∈ l) → Dom (fun y => K y ∨ y ∈ l) (σ.setAll xs vs)
  | [], vs, K, σ, l, h, _ => by
    have e : σ.setAll [] vs = σ := by cases vs <;> rfl
    rw [e]; intro y hy; exact .inl (h y hy)
  | x :: xs, [], K, σ, l, h, _ => by
    have e : σ.setAll (x :: xs) [] = σ := rfl
    rw [e]; intro y hy; exact .inl (h y hy)
  | x :: xs, v :: vs, K, σ, l, h, hl => by
    simp only [ZState.setAll]
    have h1 : Dom (fun y => K y ∨ y ∈ l) (σ.set x v) := by
      intro y hy
      simp only [ZState.set] at hy
      split at hy
      · rename_i e; subst e; exact hl y (by simp)
      · exact .inl (h y hy)
    have h2 := dom_setAll (xs := xs) (vs := vs) (l := l) h1 (fun y hy => .inl (hl y (by simp [hy])))
    intro y hy
    rcases h2 y hy with h | h
    · exact h
    · exact .inr h

theorem dom_asms {K : ZId → Prop} : ∀ {ss : List (ZAsm (ZMod p) Z)} {σ σ₁ : ZState p} {l : List ZId}, Dom (fun y => K y ∨ y ∈ l) σ →
    (∀ x ∈ ss.flatMap ZAsm.defs, x ∈ l) → ExecAsms O σ ss (.ok σ₁) → Dom (fun y => K y ∨ y ∈ l) σ₁
  | [], σ, σ₁, l, h, _, he => by cases he; exact h
  | s :: ss, σ, σ₁, l, h, hl, he => by
    cases he with
    | @cons _ _ _ σ' _ h1 h2 =>
      refine dom_asms (ss := ss) (σ := σ') (l := l) ?_ (fun x hx => hl x (by rw [List.flatMap_cons]; exact List.mem_append_right _ hx)) h2
      cases h1 with
      | @assignment xs f args ins outs _ _ _ =>
        have := dom_setAll (xs := xs) (vs := outs.map ZVal.field) (l := l) h (fun x hx => .inr (hl x (by rw [List.flatMap_cons]; exact List.mem_append_left _ hx)))
        intro y hy
        rcases this y hy with h | h
        · exact h
        · exact .inr h
      | ok => exact h

theorem dom_exec {K : ZId → Prop} {σ σ₁ : ZState p} {s : ZStmt (ZMod p) Z} (ht : TyStmt ar K s) (h : Dom K σ)
    (he : Exec O σ s (.ok σ₁)) : Dom (fun y => K y ∨ y ∈ s.defs) σ₁ := by
  cases he with
  | ret => intro y hy; exact .inl (h y hy)
  | definition => exact dom_set h (by simp [ZStmt.defs])
  | ifElse => exact ht.elim
  | assertOk => intro y hy; exact .inl (h y hy)
  | multiDef => exact dom_setAll h (fun x hx => .inr (by simpa [ZStmt.defs] using hx))
  | log => intro y hy; exact .inl (h y hy)
  | @assembly _ ss _ h1 =>
    exact dom_asms (K := K) (l := ss.flatMap ZAsm.defs) (fun y hy => .inl (h y hy)) (fun x hx => hx) h1

theorem consts_none {K : ZId → Prop} {c : Consts p} {σ σ' : ZState p} (hs : Sim c σ σ') (hd : Dom K σ) {xs : List ZId}
    (hx : ∀ x ∈ xs, ¬ K x) : ∀ x ∈ xs, c x = none := by
  intro x h
  cases hc : c x with
  | none => rfl
  | some v => exact absurd (hd x (by rw [hs.agree.const x v hc]; simp)) (hx x h)

theorem evalZ_uint {env : ZEnv p} (he : UintsFit env) {e : ZExpr (ZMod p)} {v : ZVal p} (ht : TyZ e)
    (h : evalZ env e = .ok v) : ∀ w n, v = .uint w n → n < 2 ^ w := by
  intro w n hv
  cases e with
  | field e => simp only [evalZ] at h; obtain ⟨a, _, h⟩ := exc_bind_ok h; cases h; cases hv
  | bool e => simp only [evalZ] at h; obtain ⟨a, _, h⟩ := exc_bind_ok h; cases h; cases hv
  | uint e =>
    simp only [evalZ] at h; obtain ⟨a, h1, h⟩ := exc_bind_ok h; cases h; cases hv
    exact evalU_lt he e _ ht h1

theorem sim_outs {c : Consts p} {σ σ' : ZState p} (hs : Sim c σ σ') (vs : Option (List (ZVal p))) :
    Sim c { σ with outs := vs } { σ' with outs := vs } := ⟨hs.agree, rfl, hs.ok⟩

theorem propS_fwd (hH : HintOk ar H O O') {K : ZId → Prop} {c : Consts p} {σ σ' σ₁ : ZState p} (hs : Sim c σ σ')
    (hd : Dom K σ) {s : ZStmt (ZMod p) Z} (ht : TyStmt ar K s) (h : Exec O σ s (.ok σ₁)) :
    ∃ c' ss, propS H err c s = .ok (c', ss) ∧ ∃ σ₁', ExecL O' σ' ss (.ok σ₁') ∧ Sim c' σ₁ σ₁' := by
  cases h with
  | @ret _ es vs h1 =>
    obtain ⟨es', h2, h3⟩ := propZs_ok hs.agree hs.ok es vs ht h1
    exact ⟨c, [.ret es'], by simp only [propS, h2, exc_ok_bind], _, .cons (.ret h3) .nil, sim_outs hs _⟩
  | @definition _ x e v h1 =>
    obtain ⟨e', h2, h3⟩ := propZ_ok hs.agree hs.ok e v ht h1
    have hv := evalZ_uint hs.ok ht h1
    simp only [propS, h2, exc_ok_bind]
    cases hz : zval? e' with
    | some w =>
      rw [zval_eq hz] at h3; cases h3
      exact ⟨_, [], rfl, σ', .nil, agree_insert hs.agree x v, hs.outs, envOk_set hs.ok x v hv⟩
    | none => exact ⟨_, _, rfl, _, .cons (.definition h3) .nil, agree_remove hs.agree x v, hs.outs, envOk_set hs.ok x v hv⟩
  | ifElse => exact ht.elim
  | @assertOk _ e err' h1 =>
    obtain ⟨e', h2, _, h3⟩ := propB_ok hs.agree hs.ok e true ht h1
    simp only [propS, h2, exc_ok_bind]
    cases hb : bval? e' with
    | some b =>
      have := ev_bval hb h3.2; subst this
      exact ⟨c, [], rfl, σ', .nil, hs⟩
    | none => exact ⟨c, _, rfl, σ', .cons (.assertOk h3.2.false_eq) .nil, hs⟩
  | @multiDef _ xs embed g args vs rs h1 h2 h3 =>
    have hc := removeAll_of_none xs c (consts_none hs hd ht.1)
    obtain ⟨es', h4, h5⟩ := propZs_ok hs.agree hs.ok args vs ht.2 h1
    refine ⟨c.removeAll xs, [.multiDef xs embed g es'], by simp only [propS, hc, h4, exc_ok_bind], _,
      .cons (.multiDef h5 (embedRes_congr hH.unpack h2) h3) .nil, sim_setAll _ _ _ _ _ hs h3 (embedRes_ok h2)⟩
  | @log _ es vs h1 =>
    obtain ⟨es', h2, h3⟩ := propZss_ok hs.agree hs.ok es vs ht h1
    exact ⟨c, [.log es'], by simp only [propS, h2, exc_ok_bind], _, .cons (.log h3) .nil, hs⟩
  | @assembly _ ss _ h1 =>
    obtain ⟨c', ss', h2, σ₁', h3, hs'⟩ := propAsms_fwd (err := err) hH hs ht h1
    refine ⟨c', if ss'.isEmpty then [] else [.assembly ss'], by simp only [propS, h2, exc_ok_bind], σ₁', ?_, hs'⟩
    cases ss' with
    | nil => cases h3; exact .nil
    | cons a ss' => exact .cons (.assembly h3) .nil

theorem propSs_fwd (hH : HintOk ar H O O') : ∀ {s : List (ZStmt (ZMod p) Z)} {K : ZId → Prop} {c : Consts p}
    {σ σ' σ₁ : ZState p}, Sim c σ σ' → Dom K σ → TyStmts ar K s → ExecL O σ s (.ok σ₁) →
    ∃ c' ss, propSs H err c s = .ok (c', ss) ∧ ∃ σ₁', ExecL O' σ' ss (.ok σ₁') ∧ Sim c' σ₁ σ₁'
  | [], K, c, σ, σ', σ₁, hs, _, _, h => by cases h; exact ⟨c, [], by simp only [propSs], σ', .nil, hs⟩
  | s :: ss, K, c, σ, σ', σ₁, hs, hd, ht, h => by
    cases h with
    | cons h1 h2 =>
      obtain ⟨c₁, s', h3, σ₂', h4, hs₁⟩ := propS_fwd (err := err) hH hs hd ht.1 h1
      obtain ⟨c₂, ss', h5, σ₃', h6, hs₂⟩ := propSs_fwd hH hs₁ (dom_exec ht.1 hd h1) ht.2 h2
      exact ⟨c₂, s' ++ ss', by simp only [propSs, h3, h5, exc_ok_bind], σ₃', execL_append h4 h6, hs₂⟩

theorem conjunct_ok {env : ZEnv p} {x e : BExpr (ZMod p)} (hc : Conjunct x e) : ∀ {v : Bool}, evalB env e = .ok v →
    ∃ w, evalB env x = .ok w := by
  induction hc with
  | self => intro v h; exact ⟨v, h⟩
  | left _ ih => intro v h; simp only [evalB] at h; obtain ⟨a, h1, _⟩ := exc_bind_ok h; exact ih h1
  | right _ ih =>
    intro v h; simp only [evalB] at h; obtain ⟨a, _, h⟩ := exc_bind_ok h; obtain ⟨b, h2, _⟩ := exc_bind_ok h; exact ih h2

theorem propS_bwd (hH : HintOk ar H O O') {K : ZId → Prop} {c c' : Consts p} {σ σ' : ZState p} (hs : Sim c σ σ')
    (hd : Dom K σ) {s : ZStmt (ZMod p) Z} (ht : TyStmt ar K s) {ss : List (ZStmt (ZMod p) Z)}
    (hp : propS H err c s = .ok (c', ss)) {r' : Except Fault (ZState p)} (h : ExecL O' σ' ss r') :
    Back c' (Exec O σ s) r' := by
  cases s with
  | ret es =>
    cases h1 : evalZs σ.env es with
    | error f => exact .inl ⟨f, .retFault h1⟩
    | ok vs =>
      obtain ⟨es', h2, h3⟩ := propZs_ok hs.agree hs.ok es vs ht h1
      simp only [propS, h2, exc_ok_bind, Except.ok.injEq, Prod.mk.injEq] at hp
      obtain ⟨rfl, rfl⟩ := hp
      cases h with
      | fault h => cases h with | retFault h => rw [h3] at h; cases h
      | cons h h' =>
        cases h'
        cases h with
        | ret h => rw [h3] at h; cases h; exact .inr ⟨_, _, rfl, .ret h1, sim_outs hs _⟩
  | definition x e =>
    cases h1 : evalZ σ.env e with
    | error f => exact .inl ⟨f, .definitionFault h1⟩
    | ok v =>
      obtain ⟨e', h2, h3⟩ := propZ_ok hs.agree hs.ok e v ht h1
      have hv := evalZ_uint hs.ok ht h1
      simp only [propS, h2, exc_ok_bind] at hp
      cases hz : zval? e' with
      | some w =>
        rw [zval_eq hz] at h3; cases h3
        simp only [hz, Except.ok.injEq, Prod.mk.injEq] at hp
        obtain ⟨rfl, rfl⟩ := hp
        cases h
        exact .inr ⟨_, _, rfl, .definition h1, agree_insert hs.agree x v, hs.outs, envOk_set hs.ok x v hv⟩
      | none =>
        simp only [hz, Except.ok.injEq, Prod.mk.injEq] at hp
        obtain ⟨rfl, rfl⟩ := hp
        cases h with
        | fault h => cases h with | definitionFault h => rw [h3] at h; cases h
        | cons h h' =>
          cases h'
          cases h with
          | definition h =>
            rw [h3] at h; cases h
            exact .inr ⟨_, _, rfl, .definition h1, agree_remove hs.agree x v, hs.outs, envOk_set hs.ok x v hv⟩
  | ifElse => exact ht.elim
  | assertion e err' =>
    cases h1 : evalB σ.env e with
    | error f => exact .inl ⟨f, .assertFault (.self e) h1⟩
    | ok v =>
      cases v with
      | false => exact .inl ⟨_, .assertFailed h1⟩
      | true =>
        obtain ⟨e', h2, _, h3⟩ := propB_ok hs.agree hs.ok e true ht h1
        have h4 := h3.2.false_eq
        simp only [propS, h2, exc_ok_bind] at hp
        cases hb : bval? e' with
        | some b =>
          have := ev_bval hb h3.2; subst this
          simp only [hb, Except.ok.injEq, Prod.mk.injEq] at hp
          obtain ⟨rfl, rfl⟩ := hp
          cases h
          exact .inr ⟨_, _, rfl, .assertOk h1, hs⟩
        | none =>
          simp only [hb, Except.ok.injEq, Prod.mk.injEq] at hp
          obtain ⟨rfl, rfl⟩ := hp
          cases h with
          | fault h =>
            cases h with
            | assertFailed h => rw [h4] at h; cases h
            | assertFault hc h => obtain ⟨w, hw⟩ := conjunct_ok hc h4; rw [hw] at h; cases h
          | cons h h' =>
            cases h'
            cases h with
            | assertOk h => exact .inr ⟨_, _, rfl, .assertOk h1, hs⟩
  | multiDef xs embed g args =>
    cases h1 : evalZs σ.env args with
    | error f => exact .inl ⟨f, .argsFault h1⟩
    | ok vs =>
      have hc := removeAll_of_none xs c (consts_none hs hd ht.1)
      obtain ⟨es', h4, h5⟩ := propZs_ok hs.agree hs.ok args vs ht.2 h1
      simp only [propS, hc, h4, exc_ok_bind, Except.ok.injEq, Prod.mk.injEq] at hp
      obtain ⟨rfl, rfl⟩ := hp
      cases h with
      | fault h =>
        cases h with
        | argsFault h => rw [h5] at h; cases h
        | embedFault h h' => rw [h5] at h; cases h; exact .inl ⟨_, .embedFault h1 (embedRes_congr hH.unpack.symm h')⟩
      | cons h h' =>
        cases h'
        cases h with
        | multiDef h h' h'' =>
          rw [h5] at h; cases h
          have hr := embedRes_congr hH.unpack.symm h'
          have := sim_setAll xs _ c _ _ hs h'' (embedRes_ok hr)
          rw [hc] at this
          exact .inr ⟨_, _, rfl, .multiDef h1 hr h'', this⟩
  | log es =>
    cases h1 : evalZs σ.env es.flatten with
    | error f => exact .inl ⟨f, .logFault h1⟩
    | ok vs =>
      obtain ⟨es', h2, h3⟩ := propZss_ok hs.agree hs.ok es vs ht h1
      simp only [propS, h2, exc_ok_bind, Except.ok.injEq, Prod.mk.injEq] at hp
      obtain ⟨rfl, rfl⟩ := hp
      cases h with
      | fault h => cases h with | logFault h => rw [h3] at h; cases h
      | cons h h' =>
        cases h'
        cases h with
        | log h => exact .inr ⟨_, _, rfl, .log h1, hs⟩
  | assembly s =>
    simp only [propS] at hp
    obtain ⟨⟨c₁, s₁⟩, h1, hp⟩ := exc_bind_ok hp
    simp only [Except.ok.injEq, Prod.mk.injEq] at hp
    obtain ⟨rfl, rfl⟩ := hp
    have h2 : ExecAsms O' σ' s₁ r' := by
      cases s₁ with
      | nil => cases h; exact .nil
      | cons a s₁ =>
        cases h with
        | fault h => cases h with | assembly h => exact h
        | cons h h' => cases h'; cases h with | assembly h => exact h
    rcases propAsms_bwd hH hs ht h1 h2 with ⟨f, hf⟩ | ⟨σ₁, σ₁', he, h3, hs'⟩
    · exact .inl ⟨f, .assembly hf⟩
    · exact .inr ⟨σ₁, σ₁', he, .assembly h3, hs'⟩

theorem propSs_bwd (hH : HintOk ar H O O') : ∀ {s : List (ZStmt (ZMod p) Z)} {K : ZId → Prop} {c c' : Consts p}
    {σ σ' : ZState p}, Sim c σ σ' → Dom K σ → TyStmts ar K s → ∀ {ss : List (ZStmt (ZMod p) Z)},
    propSs H err c s = .ok (c', ss) → ∀ {r' : Except Fault (ZState p)}, ExecL O' σ' ss r' → Back c' (ExecL O σ s) r'
  | [], K, c, c', σ, σ', hs, _, _, ss, hp, r', h => by
    simp only [propSs, Except.ok.injEq, Prod.mk.injEq] at hp
    obtain ⟨rfl, rfl⟩ := hp
    cases h; exact .inr ⟨σ, σ', rfl, .nil, hs⟩
  | s :: s', K, c, c', σ, σ', hs, hd, ht, ss, hp, r', h => by
    simp only [propSs] at hp
    obtain ⟨⟨c₁, s₁⟩, h1, hp⟩ := exc_bind_ok hp
    obtain ⟨⟨c₂, s₂⟩, h2, hp⟩ := exc_bind_ok hp
    simp only [Except.ok.injEq, Prod.mk.injEq] at hp
    obtain ⟨rfl, rfl⟩ := hp
    rcases execL_append_inv h with ⟨σ₁', h3, h4⟩ | ⟨f, rfl, h3⟩
    · rcases propS_bwd hH hs hd ht.1 h1 h3 with ⟨f, hf⟩ | ⟨σ₁, σ₁'', he, h5, hs₁⟩
      · exact .inl ⟨f, .fault hf⟩
      · cases he
        rcases propSs_bwd hH hs₁ (dom_exec ht.1 hd h5) ht.2 h2 h4 with ⟨f, hf⟩ | ⟨σ₂, σ₂', he, h6, hs₂⟩
        · exact .inl ⟨f, .cons h5 hf⟩
        · exact .inr ⟨σ₂, σ₂', he, .cons h5 h6, hs₂⟩
    · rcases propS_bwd hH hs hd ht.1 h1 h3 with ⟨f, hf⟩ | ⟨_, _, he, _⟩
      · exact .inl ⟨f, .fault hf⟩
      · cases he
end

/-! ### Functions -/

theorem decodeArgs_ok : ∀ {ps : List ZParam} {xs : List (ZMod p)} {vs : List (ZVal p)}, decodeArgs ps xs = some vs →
    vs.length = (ps.map ZParam.id).length ∧ ∀ v ∈ vs, ∀ w n, v = .uint w n → n < 2 ^ w
  | [], [], vs, h => by simp only [decodeArgs, Option.some.injEq] at h; subst h; simp
  | [], _ :: _, vs, h => by simp [decodeArgs] at h
  | _ :: _, [], vs, h => by simp [decodeArgs] at h
  | q :: qs, x :: xs, vs, h => by
    simp only [decodeArgs] at h
    split at h
    · rename_i v vs' h1 h2
      cases h
      obtain ⟨hl, hv⟩ := decodeArgs_ok h2
      refine ⟨by simp [hl], List.forall_mem_cons.2 ⟨?_, hv⟩⟩
      intro w n e
      subst e
      unfold decodeArg at h1
      split at h1
      · cases h1
      · split at h1
        · cases h1
        · split at h1 <;> cases h1
      · split at h1
        · rename_i hlt; cases h1; exact hlt
        · cases h1
    · cases h

theorem init_sim {f : ZFun (ZMod p) Z} {xs : List (ZMod p)} {vs : List (ZVal p)} (h : decodeArgs f.params xs = some vs) :
    Sim (fun _ => none) (initState f vs) (initState f vs) ∧ Dom (fun x => x ∈ f.params.map ZParam.id) (initState f vs) := by
  obtain ⟨hl, hv⟩ := decodeArgs_ok h
  constructor
  · refine ⟨⟨(fun x v h => by cases h), (fun x _ => .inl rfl)⟩, rfl, ?_⟩
    have := sim_setAll (p := p) (f.params.map ZParam.id) vs (fun _ => none) ⟨fun _ => none, none⟩ ⟨fun _ => none, none⟩
      ⟨⟨(fun x v h => by cases h), (fun x _ => .inl rfl)⟩, rfl, (fun x w n h => by cases h)⟩ hl hv
    exact this.ok
  · have := dom_setAll (p := p) (xs := f.params.map ZParam.id) (vs := vs) (K := fun _ => False) (σ := ⟨fun _ => none, none⟩)
      (l := f.params.map ZParam.id) (fun x h => absurd rfl h) (fun x hx => .inr hx)
    intro x hx
    rcases this x hx with h | h
    · exact h.elim
    · exact h

theorem propagate_inv {H : HintFolder p Z} {err : String → RuntimeError} {f f' : ZFun (ZMod p) Z}
    (h : propagate H err f = .ok f') : ∃ c', propSs H err (fun _ => none) f.body = .ok (c', f'.body) ∧
      f'.params = f.params ∧ f'.returnCount = f.returnCount := by
  simp only [propagate] at h
  obtain ⟨⟨c', b⟩, h1, h⟩ := exc_bind_ok h
  cases h; exact ⟨c', h1, rfl, rfl⟩

end Zok.Prop'
