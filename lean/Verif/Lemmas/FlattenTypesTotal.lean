import Verif.Lemmas.FlattenTypesTy

/-! The flattening of well-typed programs is well-typed, and does not panic. -/

namespace Zok.Typed
open Abi
variable {p : ℕ} [Fact p.Prime] {Z : Type} {nm : SId → ZId}

theorem primCountM_eq : ∀ (ms : List (Str × CType)), primCountM ms = primCountL (ms.map Prod.snd)
  | [] => rfl
  | (k, t) :: ms => by simp only [primCountM, primCountL, List.map_cons, primCountM_eq ms]

theorem primCount_array {n : ℕ} {t : CType} : (primCount (.array n t)).isSome ↔ (primCount t).isSome := by
  simp only [primCount]
  cases primCount t <;> simp

mutual
theorem wt_count : ∀ (e : TExpr (ZMod p)), e.Wt → (primCount e.ty).isSome
  | .fval _, _ | .fbin _ _ _, _ | .fubin _ _ _, _ | .fneg _, _ | .fpos _, _ => by simp [TExpr.ty, primCount]
  | .bval _, _ | .bbin _ _ _, _ | .bnot _, _ | .fcmp _ _ _, _ | .ucmp _ _ _, _ | .eq _ _, _ => by simp [TExpr.ty, primCount]
  | .uval _ _, _ | .ubin _ _ _ _, _ | .unot _ _, _ | .uneg _ _, _ | .upos _ _, _ => by simp [TExpr.ty, primCount]
  | .ident x t, h => by simp only [TExpr.Wt] at h; exact h.2
  | .cond t c a b, h => by
    simp only [TExpr.Wt] at h
    have := wt_count a h.2.2.2.2.1
    rw [h.2.1] at this; exact this
  | .select t a i, h => by
    simp only [TExpr.Wt] at h
    obtain ⟨⟨n, hn⟩, _, h2, _⟩ := h
    have := wt_count a h2
    rw [hn] at this
    exact primCount_array.1 this
  | .member t s m, h => by
    simp only [TExpr.Wt] at h
    obtain ⟨⟨ms, h1, h2⟩, h3⟩ := h
    have := wt_count s h3
    rw [h1, primCount] at this
    exact primCountM_lookup this h2
  | .element t s i, h => by
    simp only [TExpr.Wt] at h
    obtain ⟨⟨ms, h1, h2⟩, h3⟩ := h
    have := wt_count s h3
    rw [h1, primCount] at this
    exact primCountL_get this h2
  | .array t n es, h => by
    simp only [TExpr.Wt] at h
    exact primCount_array.2 h.1.2
  | .slice t n a lo hi, h => by
    simp only [TExpr.Wt] at h
    obtain ⟨⟨k, l, hh, h1, _⟩, h2⟩ := h
    have := wt_count a h2
    rw [h1] at this
    exact primCount_array.2 (primCount_array.1 this)
  | .repeat_ t n e c, h => by
    simp only [TExpr.Wt] at h
    have := wt_count e h.2.2
    rw [h.1.2] at this
    exact primCount_array.2 this
  | .struct ms es, h => by
    simp only [TExpr.Wt] at h
    have := wt_countL es h.2.2
    rw [h.2.1] at this
    simpa only [TExpr.ty, primCount, primCountM_eq] using this
  | .tuple ts es, h => by
    simp only [TExpr.Wt] at h
    have := wt_countL es h.2
    rw [h.1] at this
    simpa only [TExpr.ty, primCount] using this
  | .removed _, h => by simp [TExpr.Wt] at h
theorem wt_countL : ∀ (es : List (TExpr (ZMod p))), WtL es → (primCountL (es.map TExpr.ty)).isSome
  | [], _ => rfl
  | e :: es, h => by
    simp only [WtL] at h
    obtain ⟨a, ha⟩ := Option.isSome_iff_exists.1 (wt_count e h.1)
    obtain ⟨b, hb⟩ := Option.isSome_iff_exists.1 (wt_countL es h.2)
    simp [primCountL, ha, hb]
end

theorem idents_tys {l : List (SId × ZType)} (h : ∀ w, .uint w ∈ l.map Prod.snd → w ≤ 64) :
    Tys (l.map (identExpr (F := ZMod p) nm)) (l.map Prod.snd) := by
  induction l with
  | nil => exact .nil
  | cons q l ih =>
    obtain ⟨id, t⟩ := q
    refine .cons ?_ (ih fun w hw => h w (by simp at hw ⊢; exact .inr hw))
    cases t with
    | field => exact ⟨rfl, trivial⟩
    | bool => exact ⟨rfl, trivial⟩
    | uint w => exact ⟨rfl, h w (by simp), trivial⟩

theorem tys_replicate {l : List (ZExpr (ZMod p))} {ts : List ZType} (h : Tys l ts) (k : ℕ) : Tys (List.replicate k l).flatten (List.replicate k ts).flatten := by
  induction k with
  | zero => exact .nil
  | succ k ih => simp only [List.replicate_succ, List.flatten_cons]; exact h.append ih

theorem FOp.zir_ty {op : FOp} {a b : FExpr (ZMod p)} (ha : TyF a) (hb : TyF b) : TyF (op.zir a b) := by cases op <;> exact ⟨ha, hb⟩
theorem FUOp.zir_ty {op : FUOp} {a : FExpr (ZMod p)} {b : UExpr (ZMod p)} (ha : TyF a) (hb : TyU b) (hw : b.width = 32) : TyF (op.zir a b) := by
  cases op <;> exact ⟨ha, hb, hw⟩
theorem UOp.zir_ty {op : UOp} {w : UW} {a b : UExpr (ZMod p)} (ha : TyU a ∧ a.width = w.bits) (hb : TyU b ∧ b.width = (op.rightWidth w).bits) :
    TyUI w.bits (op.zir a b) := by
  cases op <;> exact ⟨ha.1, hb.1, ha.2, hb.2⟩

mutual
/-- The flattened expressions have the types of the components. -/
theorem flat_typed : ∀ (e : TExpr (ZMod p)) (zs : List (ZExpr (ZMod p))), e.Wt → flat nm e = some zs → Tys zs (primTys e.ty)
  | .fval n, zs, hw, hf => by simp only [flat] at hf; cases hf; exact tys_one rfl trivial
  | .bval n, zs, hw, hf => by simp only [flat] at hf; cases hf; exact tys_one rfl trivial
  | .uval w n, zs, hw, hf => by
    simp only [flat] at hf; cases hf
    simp only [TExpr.Wt] at hw
    exact tys_one rfl ⟨UW.bits_le w, hw⟩
  | .ident x t, zs, hw, hf => by
    simp only [flat, Option.map_eq_some_iff] at hf
    obtain ⟨l, hl, rfl⟩ := hf
    have := flatIds_tys _ _ _ hl
    simp only [TExpr.ty]
    rw [← this]
    exact idents_tys (by rw [this]; exact fun w => primTys_le t w)
  | .fbin op l r, zs, hw, hf => by
    simp only [TExpr.Wt] at hw
    simp only [flat] at hf
    split at hf
    · rename_i x y hx hy
      cases hf
      obtain ⟨lx, hlx, hx⟩ := bind_some hx
      obtain ⟨ly, hly, hy⟩ := bind_some hy
      have i1 := flat_typed l lx hw.2.2.1 hlx
      have i2 := flat_typed r ly hw.2.2.2 hly
      rw [hw.1, primTys] at i1
      rw [hw.2.1, primTys] at i2
      exact tys_one rfl (FOp.zir_ty (popF_tys i1 hx) (popF_tys i2 hy))
    · cases hf
  | .fubin op l r, zs, hw, hf => by
    simp only [TExpr.Wt] at hw
    simp only [flat] at hf
    split at hf
    · rename_i x y hx hy
      cases hf
      obtain ⟨lx, hlx, hx⟩ := bind_some hx
      obtain ⟨ly, hly, hy⟩ := bind_some hy
      have i1 := flat_typed l lx hw.2.2.1 hlx
      have i2 := flat_typed r ly hw.2.2.2 hly
      rw [hw.1, primTys] at i1
      rw [hw.2.1, primTys] at i2
      obtain ⟨j1, j2⟩ := popU_tys i2 hy
      exact tys_one rfl (FUOp.zir_ty (popF_tys i1 hx) j1 j2)
    · cases hf
  | .fneg e, zs, hw, hf => by
    simp only [TExpr.Wt] at hw
    simp only [flat] at hf
    split at hf
    · rename_i x hx
      cases hf
      obtain ⟨lx, hlx, hx⟩ := bind_some hx
      have i1 := flat_typed e lx hw.2 hlx
      rw [hw.1, primTys] at i1
      exact tys_one rfl ⟨trivial, popF_tys i1 hx⟩
    · cases hf
  | .fpos e, zs, hw, hf => by
    simp only [TExpr.Wt] at hw
    simp only [flat] at hf
    split at hf
    · rename_i x hx
      cases hf
      obtain ⟨lx, hlx, hx⟩ := bind_some hx
      have i1 := flat_typed e lx hw.2 hlx
      rw [hw.1, primTys] at i1
      exact tys_one rfl (popF_tys i1 hx)
    · cases hf
  | .ubin w op l r, zs, hw, hf => by
    simp only [TExpr.Wt] at hw
    simp only [flat] at hf
    split at hf
    · rename_i x y hx hy
      cases hf
      obtain ⟨lx, hlx, hx⟩ := bind_some hx
      obtain ⟨ly, hly, hy⟩ := bind_some hy
      have i1 := flat_typed l lx hw.2.2.1 hlx
      have i2 := flat_typed r ly hw.2.2.2 hly
      rw [hw.1, primTys] at i1
      rw [hw.2.1, primTys] at i2
      exact tys_one rfl ⟨UW.bits_le w, UOp.zir_ty (popU_tys i1 hx) (popU_tys i2 hy)⟩
    · cases hf
  | .unot w e, zs, hw, hf => by
    simp only [TExpr.Wt] at hw
    simp only [flat] at hf
    split at hf
    · rename_i x hx
      cases hf
      obtain ⟨lx, hlx, hx⟩ := bind_some hx
      have i1 := flat_typed e lx hw.2 hlx
      rw [hw.1, primTys] at i1
      obtain ⟨j1, j2⟩ := popU_tys i1 hx
      exact tys_one rfl ⟨UW.bits_le w, j1, j2⟩
    · cases hf
  | .uneg w e, zs, hw, hf => by
    simp only [TExpr.Wt] at hw
    simp only [flat] at hf
    split at hf
    · rename_i x hx
      cases hf
      obtain ⟨lx, hlx, hx⟩ := bind_some hx
      have i1 := flat_typed e lx hw.2 hlx
      rw [hw.1, primTys] at i1
      obtain ⟨j1, j2⟩ := popU_tys i1 hx
      exact tys_one rfl ⟨UW.bits_le w, ⟨UW.bits_le w, by show 0 < 2 ^ w.bits; positivity⟩, j1, rfl, j2⟩
    · cases hf
  | .upos w e, zs, hw, hf => by
    simp only [TExpr.Wt] at hw
    simp only [flat] at hf
    split at hf
    · rename_i x hx
      cases hf
      obtain ⟨lx, hlx, hx⟩ := bind_some hx
      have i1 := flat_typed e lx hw.2 hlx
      rw [hw.1, primTys] at i1
      obtain ⟨j1, j2⟩ := popU_tys i1 hx
      refine tys_one rfl ⟨UW.bits_le w, ?_⟩
      cases x
      rw [← j2]
      exact j1.2
    · cases hf
  | .bbin op l r, zs, hw, hf => by
    simp only [TExpr.Wt] at hw
    simp only [flat] at hf
    split at hf
    · rename_i x y hx hy
      cases hf
      obtain ⟨lx, hlx, hx⟩ := bind_some hx
      obtain ⟨ly, hly, hy⟩ := bind_some hy
      have i1 := flat_typed l lx hw.2.2.1 hlx
      have i2 := flat_typed r ly hw.2.2.2 hly
      rw [hw.1, primTys] at i1
      rw [hw.2.1, primTys] at i2
      refine tys_one rfl ?_
      cases op <;> exact ⟨popB_tys i1 hx, popB_tys i2 hy⟩
    · cases hf
  | .bnot e, zs, hw, hf => by
    simp only [TExpr.Wt] at hw
    simp only [flat] at hf
    split at hf
    · rename_i x hx
      cases hf
      obtain ⟨lx, hlx, hx⟩ := bind_some hx
      have i1 := flat_typed e lx hw.2 hlx
      rw [hw.1, primTys] at i1
      exact tys_one rfl (show TyB x from popB_tys i1 hx)
    · cases hf
  | .fcmp op l r, zs, hw, hf => by
    simp only [TExpr.Wt] at hw
    simp only [flat] at hf
    split at hf
    · rename_i x y hx hy
      cases hf
      obtain ⟨lx, hlx, hx⟩ := bind_some hx
      obtain ⟨ly, hly, hy⟩ := bind_some hy
      have i1 := flat_typed l lx hw.2.2.1 hlx
      have i2 := flat_typed r ly hw.2.2.2 hly
      rw [hw.1, primTys] at i1
      rw [hw.2.1, primTys] at i2
      refine tys_one rfl ?_
      cases op <;> exact ⟨popF_tys i1 hx, popF_tys i2 hy⟩
    · cases hf
  | .ucmp op l r, zs, hw, hf => by
    simp only [TExpr.Wt] at hw
    obtain ⟨⟨w, w1, w2⟩, w3, w4⟩ := hw
    simp only [flat] at hf
    split at hf
    · rename_i x y hx hy
      cases hf
      obtain ⟨lx, hlx, hx⟩ := bind_some hx
      obtain ⟨ly, hly, hy⟩ := bind_some hy
      have i1 := flat_typed l lx w3 hlx
      have i2 := flat_typed r ly w4 hly
      rw [w1, primTys] at i1
      rw [w2, primTys] at i2
      obtain ⟨j1, j2⟩ := popU_tys i1 hx
      obtain ⟨j3, j4⟩ := popU_tys i2 hy
      refine tys_one rfl ?_
      cases op <;> exact ⟨j1, j3, j2.trans j4.symm⟩
    · cases hf
  | .eq l r, zs, hw, hf => by
    simp only [TExpr.Wt] at hw
    simp only [flat] at hf
    split at hf
    · rename_i x y hx hy
      split at hf
      · rw [Option.map_eq_some_iff] at hf
        obtain ⟨e, he, rfl⟩ := hf
        have i1 := flat_typed l x hw.2.2.1 hx
        have i2 := flat_typed r y hw.2.2.2 hy
        rw [hw.1] at i1
        exact tys_one rfl (conjTree_ty _ i1 i2 he)
      · cases hf
    · cases hf
  | .cond t c a b, zs, hw, hf => by
    simp only [TExpr.Wt] at hw
    obtain ⟨w1, w2, w3, w4, w5, w6⟩ := hw
    simp only [flat] at hf
    split at hf
    · rename_i x y z hx hy hz
      obtain ⟨lx, hlx, hx⟩ := bind_some hx
      have i1 := flat_typed c lx w4 hlx
      have i2 := flat_typed a y w5 hy
      have i3 := flat_typed b z w6 hz
      rw [w1, primTys] at i1
      rw [w2] at i2
      rw [w3] at i3
      exact condZs_tys (popB_tys i1 hx) i2 i3 hf
    · cases hf
  | .select t a i, zs, hw, hf => by
    simp only [TExpr.Wt] at hw
    obtain ⟨⟨n, w1⟩, w2, w3, w4⟩ := hw
    simp only [flat, w1] at hf
    split at hf
    · rename_i c arr iu hc ha hi
      obtain ⟨lx, hlx, hi⟩ := bind_some hi
      have i1 := flat_typed a arr w3 ha
      have i2 := flat_typed i lx w4 hlx
      rw [w1, primTys] at i1
      rw [w2, primTys] at i2
      obtain ⟨j1, j2⟩ := popU_tys i2 hi
      exact selectZs_tys (primTys_len hc) j1 j2 i1 hf
    · cases hf
  | .member t s m, zs, hw, hf => by
    simp only [TExpr.Wt] at hw
    obtain ⟨⟨ms, w1, w2⟩, w3⟩ := hw
    simp only [flat, w1] at hf
    split at hf
    · rename_i pre t' l hm hl
      have i1 := flat_typed s l w3 hl
      obtain ⟨⟨us, h1⟩, h2⟩ := memberSplit_ty hm
      rw [w2] at h2
      cases h2
      rw [w1, primTys, primTysM_eq, h1] at i1
      exact component_tys i1 hf
    · cases hf
  | .element t s i, zs, hw, hf => by
    simp only [TExpr.Wt] at hw
    obtain ⟨⟨ts, w1, w2⟩, w3⟩ := hw
    simp only [flat, w1] at hf
    split at hf
    · rename_i t' l hm hl
      have i1 := flat_typed s l w3 hl
      rw [w2] at hm
      cases hm
      obtain ⟨hi, hi'⟩ := List.getElem?_eq_some_iff.1 w2
      have : ts = ts.take i ++ t :: ts.drop (i + 1) := by
        rw [← hi', ← List.drop_eq_getElem_cons hi, List.take_append_drop]
      rw [w1, primTys] at i1
      rw [this] at i1
      exact component_tys i1 hf
    · cases hf
  | .array t n es, zs, hw, hf => by
    simp only [TExpr.Wt] at hw
    obtain ⟨w1, w2, w3⟩ := hw
    simp only [flat] at hf
    split at hf
    · rename_i l c hl hc
      split at hf
      · cases hf
        exact flatS_typed t es n zs w2 w3 hl
      · cases hf
    · cases hf
  | .slice t n a lo hi, zs, hw, hf => by
    simp only [TExpr.Wt] at hw
    obtain ⟨⟨k, l, h, w1, rfl, rfl, w2, w3, rfl⟩, w4⟩ := hw
    simp only [flat] at hf
    split at hf
    · rename_i arr w' m' lo' w'' m'' hi' c ha hlo hhi hc
      simp only [Option.bind_some, popU, List.getLast?_singleton, Option.some.injEq, UExpr.mk.injEq, UInner.value.injEq] at hlo hhi
      obtain ⟨_, _, rfl⟩ := hlo
      obtain ⟨_, _, rfl⟩ := hhi
      split at hf
      · have i1 := flat_typed a arr w4 ha
        rw [w1, primTys] at i1
        have hb : h * c ≤ k * c := Nat.mul_le_mul_right c w3
        have := i1.slice hf
        rw [← primTys_len hc] at this hb
        rwa [replicate_slice2 _ _ _ _ w2 hb] at this
      · cases hf
    · cases hf
  | .repeat_ t n e count, zs, hw, hf => by
    simp only [TExpr.Wt] at hw
    obtain ⟨⟨_, w1⟩, rfl, w2⟩ := hw
    simp only [flat] at hf
    split at hf
    · rename_i l w' m' k hl hk
      simp only [Option.bind_some, popU, List.getLast?_singleton, Option.some.injEq, UExpr.mk.injEq, UInner.value.injEq] at hk
      obtain ⟨_, _, rfl⟩ := hk
      cases hf
      have i1 := flat_typed e l w2 hl
      rw [w1] at i1
      exact tys_replicate i1 _
    · cases hf
  | .struct ms es, zs, hw, hf => by
    simp only [TExpr.Wt] at hw
    simp only [flat] at hf
    have := flatL_typed es zs hw.2.2 hf
    rw [hw.2.1, ← primTysM_eq] at this
    simpa only [TExpr.ty, primTys] using this
  | .tuple ts es, zs, hw, hf => by
    simp only [TExpr.Wt] at hw
    simp only [flat] at hf
    have := flatL_typed es zs hw.2 hf
    rw [hw.1] at this
    simpa only [TExpr.ty, primTys] using this
  | .removed _, zs, hw, hf => by simp [TExpr.Wt] at hw
theorem flatL_typed : ∀ (es : List (TExpr (ZMod p))) (zs : List (ZExpr (ZMod p))), WtL es → flatL nm es = some zs → Tys zs (primTysL (es.map TExpr.ty))
  | [], zs, _, hf => by simp only [flatL] at hf; cases hf; exact .nil
  | e :: es, zs, hw, hf => by
    simp only [WtL] at hw
    simp only [flatL] at hf
    split at hf
    · rename_i a b ha hb
      cases hf
      have i1 := flat_typed e a hw.1 ha
      have i2 := flatL_typed es b hw.2 hb
      simp only [List.map_cons, primTysL]
      exact i1.append i2
    · cases hf
theorem flatS_typed (t : CType) : ∀ (es : List (TSpread (ZMod p))) (n : ℕ) (zs : List (ZExpr (ZMod p))), spreadCount t es n → WtS t es →
    flatS nm es = some zs → Tys zs (List.replicate n (primTys t)).flatten
  | [], n, zs, hn, _, hf => by
    simp only [spreadCount] at hn; subst hn
    simp only [flatS] at hf; cases hf; exact .nil
  | .expr e :: es, n, zs, hn, hw, hf => by
    simp only [spreadCount] at hn
    obtain ⟨k, rfl, hn⟩ := hn
    simp only [WtS] at hw
    simp only [flatS] at hf
    split at hf
    · rename_i a b ha hb
      cases hf
      have i1 := flat_typed e a hw.1.2 ha
      have i2 := flatS_typed t es k b hn hw.2 hb
      rw [hw.1.1] at i1
      simp only [List.replicate_succ, List.flatten_cons]
      exact i1.append i2
    · cases hf
  | .spread e :: es, n, zs, hn, hw, hf => by
    simp only [spreadCount] at hn
    obtain ⟨m, k, he, rfl, hn⟩ := hn
    simp only [WtS] at hw
    simp only [flatS] at hf
    split at hf
    · rename_i a b ha hb
      cases hf
      have i1 := flat_typed e a hw.1 ha
      have i2 := flatS_typed t es k b hn hw.2 hb
      rw [he, primTys] at i1
      simp only [List.replicate_add, List.flatten_append]
      exact i1.append i2
    · cases hf
end

theorem pop_field {e : TExpr (ZMod p)} (hw : e.Wt) (ht : e.ty = .field) (h : ∃ zs, flat nm e = some zs) : ∃ a, (flat nm e).bind popF = some a := by
  obtain ⟨zs, hz⟩ := h
  have := flat_typed e zs hw hz
  rw [ht, primTys] at this
  obtain ⟨a, rfl, _⟩ := tys_field this
  exact ⟨a, by rw [hz]; rfl⟩
theorem pop_bool {e : TExpr (ZMod p)} (hw : e.Wt) (ht : e.ty = .bool) (h : ∃ zs, flat nm e = some zs) : ∃ a, (flat nm e).bind popB = some a := by
  obtain ⟨zs, hz⟩ := h
  have := flat_typed e zs hw hz
  rw [ht, primTys] at this
  obtain ⟨a, rfl, _⟩ := tys_bool this
  exact ⟨a, by rw [hz]; rfl⟩
theorem pop_uint {e : TExpr (ZMod p)} {w : UW} (hw : e.Wt) (ht : e.ty = .uint w) (h : ∃ zs, flat nm e = some zs) : ∃ a, (flat nm e).bind popU = some a := by
  obtain ⟨zs, hz⟩ := h
  have := flat_typed e zs hw hz
  rw [ht, primTys] at this
  obtain ⟨a, rfl, _⟩ := tys_uint this
  exact ⟨a, by rw [hz]; rfl⟩

theorem condZs_some {c : BExpr (ZMod p)} : ∀ {as bs : List (ZExpr (ZMod p))} {ts : List ZType}, Tys as ts → Tys bs ts → ∃ zs, condZs c as bs = some zs
  | [], [], _, _, _ => ⟨[], rfl⟩
  | [], _ :: _, _, h1, h2 => by cases h1; cases h2
  | _ :: _, [], _, h1, h2 => by cases h2; cases h1
  | a :: as, b :: bs, ts, h1, h2 => by
    cases h1 with
    | @cons _ t _ ts g1 g1' =>
    cases h2 with
    | cons g2 g2' =>
    obtain ⟨zs, hz⟩ := condZs_some (c := c) g1' g2'
    have ht := g1.1.trans g2.1.symm
    cases a <;> cases b <;> simp [zeTy] at ht <;> simp only [condZs, condZ, hz] <;> exact ⟨_, rfl⟩

mutual
/-- Flattening does not panic. -/
theorem flat_total : ∀ (e : TExpr (ZMod p)), e.Wt → e.Selects nm → ∃ zs, flat nm e = some zs
  | .fval n, _, _ => ⟨_, by simp only [flat]; rfl⟩
  | .bval n, _, _ => ⟨_, by simp only [flat]; rfl⟩
  | .uval w n, _, _ => ⟨_, by simp only [flat]; rfl⟩
  | .ident x t, hw, _ => by
    simp only [TExpr.Wt] at hw
    obtain ⟨c, hc⟩ := Option.isSome_iff_exists.1 hw.2
    obtain ⟨l, hl, _⟩ := flatIds_len t c (.basic x) hc
    exact ⟨_, by simp only [flat, hl]; rfl⟩
  | .fbin op l r, hw, hs => by
    simp only [TExpr.Wt] at hw
    simp only [TExpr.Selects] at hs
    obtain ⟨a, ha⟩ := pop_field hw.2.2.1 hw.1 (flat_total l hw.2.2.1 hs.1)
    obtain ⟨b, hb⟩ := pop_field hw.2.2.2 hw.2.1 (flat_total r hw.2.2.2 hs.2)
    exact ⟨_, by simp only [flat, ha, hb]; rfl⟩
  | .fubin op l r, hw, hs => by
    simp only [TExpr.Wt] at hw
    simp only [TExpr.Selects] at hs
    obtain ⟨a, ha⟩ := pop_field hw.2.2.1 hw.1 (flat_total l hw.2.2.1 hs.1)
    obtain ⟨b, hb⟩ := pop_uint hw.2.2.2 hw.2.1 (flat_total r hw.2.2.2 hs.2)
    exact ⟨_, by simp only [flat, ha, hb]; rfl⟩
  | .fneg e, hw, hs => by
    simp only [TExpr.Wt] at hw
    simp only [TExpr.Selects] at hs
    obtain ⟨a, ha⟩ := pop_field hw.2 hw.1 (flat_total e hw.2 hs)
    exact ⟨_, by simp only [flat, ha]; rfl⟩
  | .fpos e, hw, hs => by
    simp only [TExpr.Wt] at hw
    simp only [TExpr.Selects] at hs
    obtain ⟨a, ha⟩ := pop_field hw.2 hw.1 (flat_total e hw.2 hs)
    exact ⟨_, by simp only [flat, ha]; rfl⟩
  | .ubin w op l r, hw, hs => by
    simp only [TExpr.Wt] at hw
    simp only [TExpr.Selects] at hs
    obtain ⟨a, ha⟩ := pop_uint hw.2.2.1 hw.1 (flat_total l hw.2.2.1 hs.1)
    obtain ⟨b, hb⟩ := pop_uint hw.2.2.2 hw.2.1 (flat_total r hw.2.2.2 hs.2)
    exact ⟨_, by simp only [flat, ha, hb]; rfl⟩
  | .unot w e, hw, hs => by
    simp only [TExpr.Wt] at hw
    simp only [TExpr.Selects] at hs
    obtain ⟨a, ha⟩ := pop_uint hw.2 hw.1 (flat_total e hw.2 hs)
    exact ⟨_, by simp only [flat, ha]; rfl⟩
  | .uneg w e, hw, hs => by
    simp only [TExpr.Wt] at hw
    simp only [TExpr.Selects] at hs
    obtain ⟨a, ha⟩ := pop_uint hw.2 hw.1 (flat_total e hw.2 hs)
    exact ⟨_, by simp only [flat, ha]; rfl⟩
  | .upos w e, hw, hs => by
    simp only [TExpr.Wt] at hw
    simp only [TExpr.Selects] at hs
    obtain ⟨a, ha⟩ := pop_uint hw.2 hw.1 (flat_total e hw.2 hs)
    exact ⟨_, by simp only [flat, ha]; rfl⟩
  | .bbin op l r, hw, hs => by
    simp only [TExpr.Wt] at hw
    simp only [TExpr.Selects] at hs
    obtain ⟨a, ha⟩ := pop_bool hw.2.2.1 hw.1 (flat_total l hw.2.2.1 hs.1)
    obtain ⟨b, hb⟩ := pop_bool hw.2.2.2 hw.2.1 (flat_total r hw.2.2.2 hs.2)
    exact ⟨_, by simp only [flat, ha, hb]; rfl⟩
  | .bnot e, hw, hs => by
    simp only [TExpr.Wt] at hw
    simp only [TExpr.Selects] at hs
    obtain ⟨a, ha⟩ := pop_bool hw.2 hw.1 (flat_total e hw.2 hs)
    exact ⟨_, by simp only [flat, ha]; rfl⟩
  | .fcmp op l r, hw, hs => by
    simp only [TExpr.Wt] at hw
    simp only [TExpr.Selects] at hs
    obtain ⟨a, ha⟩ := pop_field hw.2.2.1 hw.1 (flat_total l hw.2.2.1 hs.1)
    obtain ⟨b, hb⟩ := pop_field hw.2.2.2 hw.2.1 (flat_total r hw.2.2.2 hs.2)
    exact ⟨_, by simp only [flat, ha, hb]; rfl⟩
  | .ucmp op l r, hw, hs => by
    simp only [TExpr.Wt] at hw
    simp only [TExpr.Selects] at hs
    obtain ⟨⟨w, w1, w2⟩, w3, w4⟩ := hw
    obtain ⟨a, ha⟩ := pop_uint w3 w1 (flat_total l w3 hs.1)
    obtain ⟨b, hb⟩ := pop_uint w4 w2 (flat_total r w4 hs.2)
    exact ⟨_, by simp only [flat, ha, hb]; rfl⟩
  | .eq l r, hw, hs => by
    simp only [TExpr.Wt] at hw
    simp only [TExpr.Selects] at hs
    obtain ⟨a, ha⟩ := flat_total l hw.2.2.1 hs.1
    obtain ⟨b, hb⟩ := flat_total r hw.2.2.2 hs.2
    have i1 := flat_typed l a hw.2.2.1 ha
    have i2 := flat_typed r b hw.2.2.2 hb
    rw [hw.1] at i1
    obtain ⟨e, he⟩ := conjTree_some a.length i1 i2 (le_refl _)
    exact ⟨[.bool e], by simp only [flat, ha, hb]; rw [if_pos (by rw [i1.len, i2.len]), he]; rfl⟩
  | .cond t c a b, hw, hs => by
    simp only [TExpr.Wt] at hw
    obtain ⟨w1, w2, w3, w4, w5, w6⟩ := hw
    simp only [TExpr.Selects] at hs
    obtain ⟨x, hx⟩ := pop_bool w4 w1 (flat_total c w4 hs.1)
    obtain ⟨y, hy⟩ := flat_total a w5 hs.2.1
    obtain ⟨z, hz⟩ := flat_total b w6 hs.2.2
    have i2 := flat_typed a y w5 hy
    have i3 := flat_typed b z w6 hz
    rw [w2] at i2
    rw [w3] at i3
    obtain ⟨zs, h⟩ := condZs_some (c := x) i2 i3
    exact ⟨zs, by simp only [flat, hx, hy, hz]; exact h⟩
  | .select t a i, hw, hs => by
    have hcs := wt_count _ hw
    simp only [TExpr.Wt] at hw
    obtain ⟨⟨n, w1⟩, w2, w3, w4⟩ := hw
    simp only [TExpr.Selects] at hs
    obtain ⟨s1, s2, s3⟩ := hs
    obtain ⟨arr, ha⟩ := flat_total a w3 s2
    obtain ⟨iu, hi⟩ := pop_uint w4 w2 (flat_total i w4 s3)
    obtain ⟨c, hc⟩ := Option.isSome_iff_exists.1 hcs
    simp only [TExpr.ty] at hc
    have i1 := flat_typed a arr w3 ha
    rw [w1, primTys] at i1
    have hsel := s1 n t iu w1 hi
    obtain ⟨zs, hz⟩ := selectZs_some (n := n) (i := iu) (primTys_len hc) i1 (by
      split at hsel
      · rename_i k hk; simp only [hk]; exact hsel
      · rename_i hk
        split
        · rename_i v hv; exact absurd hv (hk v)
        · refine ⟨hsel.1, Nat.pos_of_ne_zero fun e => hsel.2 (by rw [hc, e])⟩)
    exact ⟨zs, by simp only [flat, w1, hc, ha, hi]; exact hz⟩
  | .member t s m, hw, hs => by
    have hcs := wt_count _ hw
    simp only [TExpr.Wt] at hw
    obtain ⟨⟨ms, w1, w2⟩, w3⟩ := hw
    simp only [TExpr.Selects] at hs
    obtain ⟨l, hl⟩ := flat_total s w3 hs
    have hcm := wt_count s w3
    have i1 := flat_typed s l w3 hl
    rw [w1, primCount, primCountM_eq] at hcm
    obtain ⟨pre, hm⟩ : ∃ pre, memberSplit m ms = some (pre, t) := by
      clear i1 hcm w1
      induction ms with
      | nil => simp at w2
      | cons kv ms ih =>
        obtain ⟨k, t0⟩ := kv
        simp only [memberSplit]
        by_cases hk : k = m
        · subst hk; simp [List.lookup] at w2; subst w2; exact ⟨_, if_pos rfl⟩
        · have hne : (m == k) = false := by simpa using fun e : m = k => hk e.symm
          simp only [List.lookup, hne] at w2
          obtain ⟨pre, hpre⟩ := ih w2
          exact ⟨t0 :: pre, by rw [if_neg hk, hpre]; rfl⟩
    obtain ⟨⟨us, h1⟩, _⟩ := memberSplit_ty hm
    rw [w1, primTys, primTysM_eq, h1] at i1
    obtain ⟨zs, hz⟩ := component_some i1 (by
      apply primCountL_of
      intro t' ht'
      obtain ⟨j, hj⟩ := List.getElem?_of_mem (show t' ∈ ms.map Prod.snd by rw [h1]; exact List.mem_append_left _ ht')
      exact primCountL_get hcm hj) hcs
    exact ⟨zs, by simp only [flat, w1, hm, hl]; exact hz⟩
  | .element t s i, hw, hs => by
    have hcs := wt_count _ hw
    simp only [TExpr.Wt] at hw
    obtain ⟨⟨ts, w1, w2⟩, w3⟩ := hw
    simp only [TExpr.Selects] at hs
    obtain ⟨l, hl⟩ := flat_total s w3 hs
    have hcm := wt_count s w3
    have i1 := flat_typed s l w3 hl
    rw [w1, primCount] at hcm
    obtain ⟨hi, hi'⟩ := List.getElem?_eq_some_iff.1 w2
    have this : ts = ts.take i ++ t :: ts.drop (i + 1) := by
      rw [← hi', ← List.drop_eq_getElem_cons hi, List.take_append_drop]
    rw [w1, primTys] at i1
    rw [this] at i1
    obtain ⟨zs, hz⟩ := component_some i1 (by
      apply primCountL_of
      intro t' ht'
      obtain ⟨j, hj⟩ := List.getElem?_of_mem (List.mem_of_mem_take ht')
      exact primCountL_get hcm hj) hcs
    exact ⟨zs, by simp only [flat, w1, w2, hl]; exact hz⟩
  | .array t n es, hw, hs => by
    simp only [TExpr.Wt] at hw
    obtain ⟨w1, w2, w3⟩ := hw
    simp only [TExpr.Selects] at hs
    obtain ⟨l, hl⟩ := flatS_total t es w3 hs
    obtain ⟨c, hc⟩ := Option.isSome_iff_exists.1 w1.2
    have i1 := flatS_typed t es n l w2 w3 hl
    refine ⟨l, ?_⟩
    simp only [flat, hl, hc]
    rw [if_pos (by rw [i1.len]; simp [primTys_len hc])]
  | .slice t n a lo hi, hw, hs => by
    have hcs := wt_count _ hw
    simp only [TExpr.Wt] at hw
    obtain ⟨⟨k, l, h, w1, rfl, rfl, w2, w3, rfl⟩, w4⟩ := hw
    simp only [TExpr.Selects] at hs
    obtain ⟨arr, ha⟩ := flat_total a w4 hs
    obtain ⟨c, hc⟩ := Option.isSome_iff_exists.1 (primCount_array.1 hcs)
    have i1 := flat_typed a arr w4 ha
    rw [w1, primTys] at i1
    have hb : h * c ≤ k * c := Nat.mul_le_mul_right c w3
    simp only [flat, ha, hc, Option.bind_some, popU, List.getLast?_singleton]
    rw [if_pos ⟨trivial, Nat.mul_le_mul_right c w2⟩]
    unfold Abi.slice
    rw [if_pos (by rw [i1.len]; simpa [primTys_len hc] using hb)]
    exact ⟨_, rfl⟩
  | .repeat_ t n e count, hw, hs => by
    simp only [TExpr.Wt] at hw
    obtain ⟨⟨_, w1⟩, rfl, w2⟩ := hw
    simp only [TExpr.Selects] at hs
    obtain ⟨l, hl⟩ := flat_total e w2 hs
    simp only [flat, hl, Option.bind_some, popU, List.getLast?_singleton]
    exact ⟨_, rfl⟩
  | .struct ms es, hw, hs => by
    simp only [TExpr.Wt] at hw
    simp only [TExpr.Selects] at hs
    obtain ⟨l, hl⟩ := flatL_total es hw.2.2 hs
    exact ⟨l, by simp only [flat]; exact hl⟩
  | .tuple ts es, hw, hs => by
    simp only [TExpr.Wt] at hw
    simp only [TExpr.Selects] at hs
    obtain ⟨l, hl⟩ := flatL_total es hw.2 hs
    exact ⟨l, by simp only [flat]; exact hl⟩
  | .removed _, hw, _ => by simp [TExpr.Wt] at hw
theorem flatL_total : ∀ (es : List (TExpr (ZMod p))), WtL es → SelectsL nm es → ∃ zs, flatL nm es = some zs
  | [], _, _ => ⟨_, by simp only [flatL]; rfl⟩
  | e :: es, hw, hs => by
    simp only [WtL] at hw
    simp only [SelectsL] at hs
    obtain ⟨a, ha⟩ := flat_total e hw.1 hs.1
    obtain ⟨b, hb⟩ := flatL_total es hw.2 hs.2
    exact ⟨_, by simp only [flatL, ha, hb]; rfl⟩
theorem flatS_total (t : CType) : ∀ (es : List (TSpread (ZMod p))), WtS t es → SelectsS nm es → ∃ zs, flatS nm es = some zs
  | [], _, _ => ⟨_, by simp only [flatS]; rfl⟩
  | .expr e :: es, hw, hs => by
    simp only [WtS] at hw
    simp only [SelectsS] at hs
    obtain ⟨a, ha⟩ := flat_total e hw.1.2 hs.1
    obtain ⟨b, hb⟩ := flatS_total t es hw.2 hs.2
    exact ⟨_, by simp only [flatS, ha, hb]; rfl⟩
  | .spread e :: es, hw, hs => by
    simp only [WtS] at hw
    simp only [SelectsS] at hs
    obtain ⟨a, ha⟩ := flat_total e hw.1 hs.1
    obtain ⟨b, hb⟩ := flatS_total t es hw.2 hs.2
    exact ⟨_, by simp only [flatS, ha, hb]; rfl⟩
end

end Zok.Typed
