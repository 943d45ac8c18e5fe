import Verif.Lemmas.TypedVals
import Verif.Lemmas.PropagateStmt

namespace Zok.Typed
open Abi
variable {p : ℕ} [Fact p.Prime]

/-! ### Evaluation gives values of the type -/

theorem bind_ok {α β : Type} {x : Except Fault α} {f : α → Except Fault β} {v : β} (h : x.bind f = .ok v) : ∃ a, x = .ok a ∧ f a = .ok v :=
  Prop'.exc_bind_ok h

theorem asField_ok {v : AVal (ZMod p)} {x} (h : asField v = .ok x) : v = .field x := by
  cases v <;> simp_all [asField]
theorem asBool_ok {v : AVal (ZMod p)} {x} (h : asBool v = .ok x) : v = .bool x := by
  cases v <;> simp_all [asBool]
theorem asUint_ok {w : UW} {v : AVal (ZMod p)} {x} (h : asUint w v = .ok x) : v = .uint w x := by
  cases v with
  | uint w' n =>
    simp only [asUint] at h
    split at h
    · rename_i h1; cases h; rw [h1]
    · cases h
  | _ => simp [asUint] at h
theorem asArray_ok {v : AVal (ZMod p)} {x} (h : asArray v = .ok x) : v = .array x := by
  cases v <;> simp_all [asArray]

theorem selectVal_ok {α : Type} {l : List α} {i : ℕ} {a : α} (h : selectVal l i = .ok a) : l[i]? = some a := by
  unfold selectVal at h
  split at h
  · rename_i b hb; cases h; exact hb
  · cases h

theorem hasTypeM_lookup : ∀ (ms : List (Str × CType)) (vs : List (Str × AVal (ZMod p))) (m : Str) (t : CType) (v : AVal (ZMod p)), HasTypeM ms vs →
    ms.lookup m = some t → vs.lookup m = some v → HasType t v
  | [], [], _, _, _, _, h, _ => by simp at h
  | [], _ :: _, _, _, _, h, _, _ => by simp [HasTypeM] at h
  | _ :: _, [], _, _, _, h, _, _ => by simp [HasTypeM] at h
  | (k, t0) :: ms, (k', v0) :: vs, m, t, v, h, h1, h2 => by
    simp only [HasTypeM] at h
    obtain ⟨hk, h3, h4⟩ := h
    subst hk
    simp only [List.lookup] at h1 h2
    cases hm : m == k' with
    | true => simp only [hm, Option.some.injEq] at h1 h2; rwa [← h1, ← h2]
    | false => simp only [hm] at h1 h2; exact hasTypeM_lookup ms vs m t v h4 h1 h2

theorem hasTypeL_get : ∀ (ts : List CType) (vs : List (AVal (ZMod p))) (i : ℕ) (t : CType) (v : AVal (ZMod p)), HasTypeL ts vs →
    ts[i]? = some t → vs[i]? = some v → HasType t v
  | [], [], _, _, _, _, h, _ => by simp at h
  | [], _ :: _, _, _, _, h, _, _ => by simp [HasTypeL] at h
  | _ :: _, [], _, _, _, h, _, _ => by simp [HasTypeL] at h
  | t0 :: ts, v0 :: vs, 0, t, v, h, h1, h2 => by
    simp only [HasTypeL] at h
    simp at h1 h2
    rw [← h1, ← h2]; exact h.1
  | t0 :: ts, v0 :: vs, i + 1, t, v, h, h1, h2 => by
    simp only [HasTypeL] at h
    simp only [List.getElem?_cons_succ] at h1 h2
    exact hasTypeL_get ts vs i t v h.2 h1 h2

theorem UOp.eval_lt {w : ℕ} {op : UOp} {a b c : ℕ} (ha : a < 2 ^ w) (hb : op ≠ .shl → op ≠ .shr → b < 2 ^ w) (h : op.eval w a b = .ok c) :
    c < 2 ^ w := by
  have h0 : 0 < 2 ^ w := by positivity
  cases op <;> simp only [UOp.eval] at h
  · cases h; exact Nat.mod_lt _ h0
  · cases h; exact Nat.mod_lt _ h0
  · cases h; exact Nat.mod_lt _ h0
  · split at h
    · cases h
    · cases h; exact lt_of_le_of_lt (Nat.div_le_self _ _) ha
  · split at h
    · cases h
    · cases h; exact lt_of_le_of_lt (Nat.mod_le _ _) ha
  · cases h; exact Nat.xor_lt_two_pow ha (hb (by decide) (by decide))
  · cases h; exact lt_of_le_of_lt Nat.and_le_left ha
  · cases h; exact Nat.or_lt_two_pow ha (hb (by decide) (by decide))
  · cases h; exact Nat.mod_lt _ h0
  · cases h; exact lt_of_le_of_lt (Nat.div_le_self _ _) ha

theorem UOp.right_of {op : UOp} (w : UW) (h1 : op ≠ .shl) (h2 : op ≠ .shr) : op.rightWidth w = w := by
  cases op <;> simp_all [UOp.rightWidth]

theorem hasTypeL_zip : ∀ (ms : List (Str × CType)) (vs : List (AVal (ZMod p))), HasTypeL (ms.map Prod.snd) vs →
    HasTypeM ms ((ms.map Prod.fst).zip vs)
  | [], [], _ => by simp [HasTypeM]
  | [], _ :: _, h => by simp [HasTypeL] at h
  | (k, t) :: ms, [], h => by simp [HasTypeL] at h
  | (k, t) :: ms, v :: vs, h => by
    simp only [List.map_cons, HasTypeL] at h
    simp only [List.map_cons, List.zip_cons_cons, HasTypeM]
    exact ⟨trivial, h.1, hasTypeL_zip ms vs h.2⟩

mutual
theorem eval_hasType (env : TEnv p) : ∀ (e : TExpr (ZMod p)) (v : AVal (ZMod p)), e.Wt → evalT env e = .ok v → HasType e.ty v
  | .fval n, v, hw, h => by simp only [evalT] at h; cases h; simp [TExpr.ty, HasType]
  | .bval n, v, hw, h => by simp only [evalT] at h; cases h; simp [TExpr.ty, HasType]
  | .uval w n, v, hw, h => by simp only [evalT] at h; cases h; simpa [TExpr.ty, HasType, TExpr.Wt] using hw
  | .ident x t, v, hw, h => by
    simp only [evalT] at h
    split at h
    · split at h
      · rename_i h1; cases h; exact h1
      · cases h
    · cases h
  | .fbin op l r, v, hw, h => by
    simp only [evalT] at h
    obtain ⟨a, ha, h⟩ := Prop'.exc_bind_ok h
    obtain ⟨b, hb, h⟩ := Prop'.exc_bind_ok h
    obtain ⟨c, hc, h⟩ := Prop'.exc_bind_ok h
    cases h; simp [TExpr.ty, HasType]
  | .fubin op l r, v, hw, h => by
    simp only [evalT] at h
    obtain ⟨a, ha, h⟩ := Prop'.exc_bind_ok h
    obtain ⟨b, hb, h⟩ := Prop'.exc_bind_ok h
    split at h
    · cases h; simp [TExpr.ty, HasType]
    · cases h
  | .fneg e, v, hw, h => by
    simp only [evalT] at h
    obtain ⟨a, ha, h⟩ := Prop'.exc_bind_ok h
    cases h; simp [TExpr.ty, HasType]
  | .fpos e, v, hw, h => by
    simp only [evalT] at h
    obtain ⟨a, ha, h⟩ := Prop'.exc_bind_ok h
    cases h; simp [TExpr.ty, HasType]
  | .ubin w op l r, v, hw, h => by
    simp only [evalT] at h
    obtain ⟨a, ha, h⟩ := Prop'.exc_bind_ok h
    obtain ⟨b, hb, h⟩ := Prop'.exc_bind_ok h
    obtain ⟨c, hc, h⟩ := Prop'.exc_bind_ok h
    obtain ⟨u, hu, ha⟩ := bind_ok ha
    obtain ⟨u', hu', hb⟩ := bind_ok hb
    simp only [TExpr.Wt] at hw
    have i1 := eval_hasType env l u hw.2.2.1 hu
    have i2 := eval_hasType env r u' hw.2.2.2 hu'
    rw [asUint_ok ha, hw.1] at i1
    rw [asUint_ok hb, hw.2.1] at i2
    simp only [HasType] at i1 i2
    cases h
    simp only [TExpr.ty, HasType]
    refine ⟨trivial, UOp.eval_lt i1.2 (fun h1 h2 => ?_) hc⟩
    rw [UOp.right_of w h1 h2] at i2
    exact i2.2
  | .unot w e, v, hw, h => by
    simp only [evalT] at h
    obtain ⟨a, ha, h⟩ := Prop'.exc_bind_ok h
    cases h
    simp only [TExpr.ty, HasType]
    have : 0 < 2 ^ w.bits := by positivity
    exact ⟨trivial, by omega⟩
  | .uneg w e, v, hw, h => by
    simp only [evalT] at h
    obtain ⟨a, ha, h⟩ := Prop'.exc_bind_ok h
    cases h
    simp only [TExpr.ty, HasType]
    exact ⟨trivial, Nat.mod_lt _ (by positivity)⟩
  | .upos w e, v, hw, h => by
    simp only [evalT] at h
    obtain ⟨a, ha, h⟩ := Prop'.exc_bind_ok h
    obtain ⟨u, hu, ha⟩ := bind_ok ha
    simp only [TExpr.Wt] at hw
    have i1 := eval_hasType env e u hw.2 hu
    rw [asUint_ok ha, hw.1] at i1
    cases h
    exact i1
  | .bbin op l r, v, hw, h => by
    simp only [evalT] at h
    obtain ⟨a, ha, h⟩ := Prop'.exc_bind_ok h
    obtain ⟨b, hb, h⟩ := Prop'.exc_bind_ok h
    cases h; simp [TExpr.ty, HasType]
  | .bnot e, v, hw, h => by
    simp only [evalT] at h
    obtain ⟨a, ha, h⟩ := Prop'.exc_bind_ok h
    cases h; simp [TExpr.ty, HasType]
  | .fcmp op l r, v, hw, h => by
    simp only [evalT] at h
    obtain ⟨a, ha, h⟩ := Prop'.exc_bind_ok h
    obtain ⟨b, hb, h⟩ := Prop'.exc_bind_ok h
    split at h
    · cases h; simp [TExpr.ty, HasType]
    · cases h
  | .ucmp op l r, v, hw, h => by
    simp only [evalT] at h
    obtain ⟨a, ha, h⟩ := Prop'.exc_bind_ok h
    obtain ⟨b, hb, h⟩ := Prop'.exc_bind_ok h
    cases h; simp [TExpr.ty, HasType]
  | .eq l r, v, hw, h => by
    simp only [evalT] at h
    obtain ⟨a, ha, h⟩ := Prop'.exc_bind_ok h
    obtain ⟨b, hb, h⟩ := Prop'.exc_bind_ok h
    cases h; simp [TExpr.ty, HasType]
  | .cond t c a b, v, hw, h => by
    simp only [evalT] at h
    obtain ⟨k, hk, h⟩ := Prop'.exc_bind_ok h
    obtain ⟨x, hx, h⟩ := Prop'.exc_bind_ok h
    obtain ⟨y, hy, h⟩ := Prop'.exc_bind_ok h
    simp only [TExpr.Wt] at hw
    have i1 := eval_hasType env a x hw.2.2.2.2.1 hx
    have i2 := eval_hasType env b y hw.2.2.2.2.2 hy
    rw [hw.2.1] at i1
    rw [hw.2.2.1] at i2
    cases h
    simp only [TExpr.ty]
    split
    · exact i1
    · exact i2
  | .select t a i, v, hw, h => by
    simp only [evalT] at h
    obtain ⟨vs, hvs, h⟩ := Prop'.exc_bind_ok h
    obtain ⟨k, hk, h⟩ := Prop'.exc_bind_ok h
    obtain ⟨u, hu, hvs⟩ := bind_ok hvs
    simp only [TExpr.Wt] at hw
    obtain ⟨⟨n, hn⟩, h2, h3, h4⟩ := hw
    have i1 := eval_hasType env a u h3 hu
    rw [asArray_ok hvs, hn] at i1
    simp only [HasType] at i1
    exact i1.2 v (List.mem_of_getElem? (selectVal_ok h))
  | .member t s m, v, hw, h => by
    simp only [evalT] at h
    obtain ⟨u, hu, h⟩ := Prop'.exc_bind_ok h
    simp only [TExpr.Wt] at hw
    obtain ⟨⟨ms, hn, hm⟩, h3⟩ := hw
    have i1 := eval_hasType env s u h3 hu
    cases u with
    | struct fs =>
      simp only at h
      split at h
      · rename_i v' hv'
        cases h
        rw [hn] at i1
        simp only [HasType] at i1
        exact hasTypeM_lookup ms fs m t v i1 hm hv'
      · cases h
    | _ => simp at h
  | .element t e i, v, hw, h => by
    simp only [evalT] at h
    obtain ⟨u, hu, h⟩ := Prop'.exc_bind_ok h
    simp only [TExpr.Wt] at hw
    obtain ⟨⟨ts, hn, hm⟩, h3⟩ := hw
    have i1 := eval_hasType env e u h3 hu
    cases u with
    | tuple fs =>
      simp only at h
      split at h
      · rename_i v' hv'
        cases h
        rw [hn] at i1
        simp only [HasType] at i1
        exact hasTypeL_get ts fs i t v i1 hm hv'
      · cases h
    | _ => simp at h
  | .array t n es, v, hw, h => by
    simp only [evalT] at h
    obtain ⟨vs, hvs, h⟩ := Prop'.exc_bind_ok h
    simp only [TExpr.Wt] at hw
    cases h
    simp only [TExpr.ty, HasType]
    exact evalS_hasType env t es n vs hw.2.1 hw.2.2 hvs
  | .slice t n a lo hi, v, hw, h0 => by
    simp only [evalT] at h0
    obtain ⟨vs, hvs, h1⟩ := Prop'.exc_bind_ok h0
    obtain ⟨l, hl, h2⟩ := Prop'.exc_bind_ok h1
    obtain ⟨k, hk, h3⟩ := Prop'.exc_bind_ok h2
    clear h0 h1 h2
    obtain ⟨u, hu, hvs'⟩ := bind_ok hvs
    simp only [TExpr.Wt] at hw
    obtain ⟨⟨n', l', h', e1, e2, e3, e4, e5, e6⟩, h4⟩ := hw
    have i1 := eval_hasType env a u h4 hu
    rw [asArray_ok hvs', e1] at i1
    rw [e2] at hl
    rw [e3] at hk
    simp only [evalT, Except.bind, asUint, if_true] at hl hk
    cases hl; cases hk
    simp only [HasType] at i1
    split at h3
    · cases h3
      simp only [TExpr.ty, HasType]
      refine ⟨?_, fun x hx => i1.2 x (List.mem_of_mem_take (List.mem_of_mem_drop hx))⟩
      rw [List.length_drop, List.length_take, i1.1, e6]
      omega
    · cases h3
  | .repeat_ t n e count, v, hw, h => by
    simp only [evalT] at h
    obtain ⟨x, hx, h⟩ := Prop'.exc_bind_ok h
    obtain ⟨k, hk, h⟩ := Prop'.exc_bind_ok h
    simp only [TExpr.Wt] at hw
    have i1 := eval_hasType env e x hw.2.2 hx
    obtain ⟨⟨_, w1⟩, w2, _⟩ := hw
    subst w2
    simp only [evalT, Except.bind, asUint, if_true] at hk
    cases hk
    cases h
    simp only [TExpr.ty, HasType]
    refine ⟨List.length_replicate .., fun y hy => ?_⟩
    rw [List.eq_of_mem_replicate hy, ← w1]
    exact i1
  | .struct ms es, v, hw, h => by
    simp only [evalT] at h
    obtain ⟨vs, hvs, h⟩ := Prop'.exc_bind_ok h
    simp only [TExpr.Wt] at hw
    have := evalL_hasType env es vs hw.2.2 hvs
    rw [hw.2.1] at this
    cases h
    simp only [TExpr.ty, HasType]
    exact hasTypeL_zip ms vs this
  | .tuple ts es, v, hw, h => by
    simp only [evalT] at h
    obtain ⟨vs, hvs, h⟩ := Prop'.exc_bind_ok h
    simp only [TExpr.Wt] at hw
    have := evalL_hasType env es vs hw.2 hvs
    rw [hw.1] at this
    cases h
    simpa only [TExpr.ty, HasType] using this
  | .removed t, v, hw, h => by simp [TExpr.Wt] at hw
theorem evalL_hasType (env : TEnv p) : ∀ (es : List (TExpr (ZMod p))) (vs : List (AVal (ZMod p))), WtL es → evalL env es = .ok vs →
    HasTypeL (es.map TExpr.ty) vs
  | [], vs, _, h => by simp only [evalL] at h; cases h; simp [HasTypeL]
  | e :: es, vs, hw, h => by
    simp only [evalL] at h
    obtain ⟨x, hx, h⟩ := Prop'.exc_bind_ok h
    obtain ⟨xs, hxs, h⟩ := Prop'.exc_bind_ok h
    simp only [WtL] at hw
    cases h
    simp only [List.map_cons, HasTypeL]
    exact ⟨eval_hasType env e x hw.1 hx, evalL_hasType env es xs hw.2 hxs⟩
theorem evalS_hasType (env : TEnv p) (t : CType) : ∀ (es : List (TSpread (ZMod p))) (n : ℕ) (vs : List (AVal (ZMod p))), spreadCount t es n → WtS t es →
    evalS env es = .ok vs → vs.length = n ∧ ∀ v ∈ vs, HasType t v
  | [], n, vs, hn, _, h => by
    simp only [evalS] at h
    cases h
    simp only [spreadCount] at hn
    simp [hn]
  | .expr e :: es, n, vs, hn, hw, h => by
    simp only [evalS] at h
    obtain ⟨x, hx, h⟩ := Prop'.exc_bind_ok h
    obtain ⟨xs, hxs, h⟩ := Prop'.exc_bind_ok h
    simp only [WtS] at hw
    simp only [spreadCount] at hn
    obtain ⟨k, hk, hn⟩ := hn
    obtain ⟨i1, i2⟩ := evalS_hasType env t es k xs hn hw.2 hxs
    have i3 := eval_hasType env e x hw.1.2 hx
    rw [hw.1.1] at i3
    cases h
    refine ⟨by simp [i1, hk], fun v hv => ?_⟩
    rcases List.mem_cons.1 hv with h1 | h1
    · rw [h1]; exact i3
    · exact i2 v h1
  | .spread e :: es, n, vs, hn, hw, h => by
    simp only [evalS] at h
    obtain ⟨x, hx, h⟩ := Prop'.exc_bind_ok h
    obtain ⟨xs, hxs, h⟩ := Prop'.exc_bind_ok h
    obtain ⟨u, hu, hx⟩ := bind_ok hx
    simp only [WtS] at hw
    simp only [spreadCount] at hn
    obtain ⟨m, k, hm, hk, hn⟩ := hn
    obtain ⟨i1, i2⟩ := evalS_hasType env t es k xs hn hw.2 hxs
    have i3 := eval_hasType env e u hw.1 hu
    rw [asArray_ok hx, hm] at i3
    simp only [HasType] at i3
    cases h
    refine ⟨by simp [i1, hk, i3.1], fun v hv => ?_⟩
    rcases List.mem_append.1 hv with h1 | h1
    · exact i3.2 v h1
    · exact i2 v h1
end

end Zok.Typed
