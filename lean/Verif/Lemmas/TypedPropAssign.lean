import Verif.Lemmas.TypedPropExpr

/-
Constant propagation on typed programs: assignees.
-/

set_option linter.unusedSectionVars false
set_option linter.unusedSimpArgs false

namespace Zok.Typed
open Abi
variable {p : ℕ} [Fact p.Prime]

theorem propA_typed {C : Consts (ZMod p)} (hC : GoodC C) : ∀ {a a' : TAssignee (ZMod p)}, propA C a = .ok a' → a.Wt → a'.Wt ∧ a'.ty = a.ty ∧ a'.root = a.root ∧
    a'.rootTy = a.rootTy
  | .ident x t, a', h, w => by simp only [propA] at h; cases h; exact ⟨w, rfl, rfl, rfl⟩
  | .select a i, a', h, w => by
    simp only [propA] at h
    obtain ⟨b, h1, h⟩ := pbind_ok h
    obtain ⟨j, h2, h⟩ := pbind_ok h
    cases h
    obtain ⟨⟨n, t, t1⟩, t2, w1, w2⟩ := w
    obtain ⟨g1, g2, g3, g4⟩ := propA_typed hC h1 w2
    have i2 := propT_typed hC i j h2 w1
    exact ⟨⟨⟨n, t, by rw [g2, t1]⟩, i2.1.trans t2, i2.2.1, g1⟩, by simp only [TAssignee.ty, g2], g3, g4⟩
  | .member a m, a', h, w => by
    simp only [propA] at h
    obtain ⟨b, h1, h⟩ := pbind_ok h
    cases h
    obtain ⟨⟨n, t, t1, t2⟩, w2⟩ := w
    obtain ⟨g1, g2, g3, g4⟩ := propA_typed hC h1 w2
    exact ⟨⟨⟨n, t, by rw [g2, t1], t2⟩, g1⟩, by simp only [TAssignee.ty, g2], g3, g4⟩
  | .element a m, a', h, w => by
    simp only [propA] at h
    obtain ⟨b, h1, h⟩ := pbind_ok h
    cases h
    obtain ⟨⟨n, t, t1, t2⟩, w2⟩ := w
    obtain ⟨g1, g2, g3, g4⟩ := propA_typed hC h1 w2
    exact ⟨⟨⟨n, t, by rw [g2, t1], t2⟩, g1⟩, by simp only [TAssignee.ty, g2], g3, g4⟩

theorem selA_ok {env : TEnv p} {a : TAssignee (ZMod p)} {i : TExpr (ZMod p)} {v : AVal (ZMod p)} (h : getA env (.select a i) = .ok v) : ∃ vs k,
    getA env a = .ok (.array vs) ∧ evalT env i = .ok (.uint .b32 k) ∧ vs[k]? = some v := by
  simp only [getA] at h
  obtain ⟨vs, h1, h⟩ := bind_ok h
  obtain ⟨k, h2, h⟩ := bind_ok h
  obtain ⟨a, h1, g1⟩ := bind_ok h1
  obtain ⟨k', h2, g2⟩ := bind_ok h2
  rw [asArray_ok g1] at h1
  rw [asUint_ok g2] at h2
  exact ⟨vs, k, h1, h2, selectVal_ok h⟩

theorem selA_of {env : TEnv p} {a : TAssignee (ZMod p)} {i : TExpr (ZMod p)} {v : AVal (ZMod p)} {vs : List (AVal (ZMod p))} {k : ℕ} (h1 : getA env a = .ok (.array vs))
    (h2 : evalT env i = .ok (.uint .b32 k)) (h3 : vs[k]? = some v) : getA env (.select a i) = .ok v := by
  simp only [getA, h1, h2]
  change selectVal vs k = _
  simp only [selectVal, h3]

theorem memA_ok {env : TEnv p} {a : TAssignee (ZMod p)} {m : Str} {v : AVal (ZMod p)} (h : getA env (.member a m) = .ok v) : ∃ ms, getA env a = .ok (.struct ms) ∧
    ms.lookup m = some v := by
  simp only [getA] at h
  obtain ⟨a, h1, h⟩ := bind_ok h
  split at h
  · rename_i ms
    split at h
    · rename_i hl; cases h; exact ⟨ms, h1, hl⟩
    · cases h
  · cases h

theorem elemA_ok {env : TEnv p} {a : TAssignee (ZMod p)} {i : ℕ} {v : AVal (ZMod p)} (h : getA env (.element a i) = .ok v) : ∃ vs, getA env a = .ok (.tuple vs) ∧
    vs[i]? = some v := by
  simp only [getA] at h
  obtain ⟨a, h1, h⟩ := bind_ok h
  split at h
  · rename_i ms
    split at h
    · rename_i hl; cases h; exact ⟨ms, h1, hl⟩
    · cases h
  · cases h

theorem propA_get {C : Consts (ZMod p)} (hC : GoodC C) {env env' : TEnv p} (hR : EnvRel C env env') : ∀ {a a' : TAssignee (ZMod p)} {v : AVal (ZMod p)},
    propA C a = .ok a' → a.Wt → env' a.root = env a.root → getA env a = .ok v → getA env' a' = .ok v
  | .ident x t, a', v, h, w, hr, hv => by
    simp only [propA] at h
    cases h
    simp only [getA] at hv ⊢
    obtain ⟨h1, h2⟩ := ident_ok hv
    exact ident_of (by rw [← h1]; exact hr) h2
  | .select a i, a', v, h, w, hr, hv => by
    simp only [propA] at h
    obtain ⟨b, h1, h⟩ := pbind_ok h
    obtain ⟨j, h2, h⟩ := pbind_ok h
    cases h
    obtain ⟨vs, k, g1, g2, g3⟩ := selA_ok hv
    exact selA_of (propA_get hC hR h1 w.2.2.2 hr g1) (propT_eval hC hR w.2.2.1 h2 g2) g3
  | .member a m, a', v, h, w, hr, hv => by
    simp only [propA] at h
    obtain ⟨b, h1, h⟩ := pbind_ok h
    cases h
    obtain ⟨ms, g1, g2⟩ := memA_ok hv
    simp only [getA, propA_get hC hR h1 w.2 hr g1]
    change (match ms.lookup m with | some v => _ | none => _) = _
    rw [g2]
  | .element a m, a', v, h, w, hr, hv => by
    simp only [propA] at h
    obtain ⟨b, h1, h⟩ := pbind_ok h
    cases h
    obtain ⟨ms, g1, g2⟩ := elemA_ok hv
    simp only [getA, propA_get hC hR h1 w.2 hr g1]
    change (match ms[m]? with | some v => _ | none => _) = _
    rw [g2]

theorem selS_ok {env : TEnv p} {a : TAssignee (ZMod p)} {i : TExpr (ZMod p)} {v u : AVal (ZMod p)} (h : setA env (.select a i) v = .ok u) : ∃ vs k,
    getA env a = .ok (.array vs) ∧ evalT env i = .ok (.uint .b32 k) ∧ k < vs.length ∧ setA env a (.array (vs.set k v)) = .ok u := by
  simp only [setA] at h
  obtain ⟨vs, h1, h⟩ := bind_ok h
  obtain ⟨k, h2, h⟩ := bind_ok h
  obtain ⟨a, h1, g1⟩ := bind_ok h1
  obtain ⟨k', h2, g2⟩ := bind_ok h2
  rw [asArray_ok g1] at h1
  rw [asUint_ok g2] at h2
  split at h
  · exact ⟨vs, k, h1, h2, by assumption, h⟩
  · cases h

theorem memS_ok {env : TEnv p} {a : TAssignee (ZMod p)} {m : Str} {v u : AVal (ZMod p)} (h : setA env (.member a m) v = .ok u) : ∃ ms,
    getA env a = .ok (.struct ms) ∧ setA env a (.struct (ms.map fun kv => if kv.1 = m then (kv.1, v) else kv)) = .ok u := by
  simp only [setA] at h
  obtain ⟨x, h1, h⟩ := bind_ok h
  split at h
  · exact ⟨_, h1, h⟩
  · cases h

theorem elemS_ok {env : TEnv p} {a : TAssignee (ZMod p)} {i : ℕ} {v u : AVal (ZMod p)} (h : setA env (.element a i) v = .ok u) : ∃ vs,
    getA env a = .ok (.tuple vs) ∧ setA env a (.tuple (vs.set i v)) = .ok u := by
  simp only [setA] at h
  obtain ⟨x, h1, h⟩ := bind_ok h
  split at h
  · exact ⟨_, h1, h⟩
  · cases h

theorem propA_set {C : Consts (ZMod p)} (hC : GoodC C) {env env' : TEnv p} (hR : EnvRel C env env') : ∀ {a a' : TAssignee (ZMod p)} {v u : AVal (ZMod p)},
    propA C a = .ok a' → a.Wt → env' a.root = env a.root → setA env a v = .ok u → setA env' a' v = .ok u
  | .ident x t, a', v, u, h, w, hr, hv => by
    simp only [propA] at h
    cases h
    simp only [setA] at hv ⊢
    exact hv
  | .select a i, a', v, u, h, w, hr, hv => by
    simp only [propA] at h
    obtain ⟨b, h1, h⟩ := pbind_ok h
    obtain ⟨j, h2, h⟩ := pbind_ok h
    cases h
    obtain ⟨vs, k, g1, g2, g3, g4⟩ := selS_ok hv
    simp only [setA, propA_get hC hR h1 w.2.2.2 hr g1, propT_eval hC hR w.2.2.1 h2 g2]
    change (if k < vs.length then _ else _) = _
    rw [if_pos g3]
    exact propA_set hC hR h1 w.2.2.2 hr g4
  | .member a m, a', v, u, h, w, hr, hv => by
    simp only [propA] at h
    obtain ⟨b, h1, h⟩ := pbind_ok h
    cases h
    obtain ⟨ms, g1, g2⟩ := memS_ok hv
    simp only [setA, propA_get hC hR h1 w.2 hr g1]
    exact propA_set hC hR h1 w.2 hr g2
  | .element a m, a', v, u, h, w, hr, hv => by
    simp only [propA] at h
    obtain ⟨b, h1, h⟩ := pbind_ok h
    cases h
    obtain ⟨ms, g1, g2⟩ := elemS_ok hv
    simp only [setA, propA_get hC hR h1 w.2 hr g1]
    exact propA_set hC hR h1 w.2 hr g2

/-- If the part of the variable can be read, the assignee is folded, or the pass gives up for another reason than a failure of the program. -/
theorem propA_get_keeps {C : Consts (ZMod p)} (hC : GoodC C) {env : TEnv p} (hR : EnvRel C env env) : ∀ {a : TAssignee (ZMod p)} {v : AVal (ZMod p)}, a.Wt →
    getA env a = .ok v → KeepsL (fun _ => True) (propA C a)
  | .ident x t, v, w, hv => by simp only [propA, KeepsL]
  | .select a i, v, w, hv => by
    obtain ⟨vs, k, g1, g2, g3⟩ := selA_ok hv
    simp only [propA]
    exact keepsL_bind (propA_get_keeps hC hR w.2.2.2 g1) fun b _ _ => keepsL_bind (keeps_L (propT_keeps hC hR i _ w.2.2.1 g2)) fun j _ _ => trivial
  | .member a i, v, w, hv => by
    obtain ⟨vs, g1, g3⟩ := memA_ok hv
    simp only [propA]
    exact keepsL_bind (propA_get_keeps hC hR w.2 g1) fun b _ _ => trivial
  | .element a i, v, w, hv => by
    obtain ⟨vs, g1, g3⟩ := elemA_ok hv
    simp only [propA]
    exact keepsL_bind (propA_get_keeps hC hR w.2 g1) fun b _ _ => trivial

theorem propA_keeps {C : Consts (ZMod p)} (hC : GoodC C) {env : TEnv p} (hR : EnvRel C env env) : ∀ {a : TAssignee (ZMod p)} {v u : AVal (ZMod p)}, a.Wt →
    setA env a v = .ok u → KeepsL (fun _ => True) (propA C a)
  | .ident x t, v, u, w, hv => by simp only [propA, KeepsL]
  | .select a i, v, u, w, hv => by
    obtain ⟨vs, k, g1, g2, g3, _⟩ := selS_ok hv
    simp only [propA]
    exact keepsL_bind (propA_get_keeps hC hR w.2.2.2 g1) fun b _ _ => keepsL_bind (keeps_L (propT_keeps hC hR i _ w.2.2.1 g2)) fun j _ _ => trivial
  | .member a i, v, u, w, hv => by
    obtain ⟨vs, g1, g3⟩ := memS_ok hv
    simp only [propA]
    exact keepsL_bind (propA_get_keeps hC hR w.2 g1) fun b _ _ => trivial
  | .element a i, v, u, w, hv => by
    obtain ⟨vs, g1, g3⟩ := elemS_ok hv
    simp only [propA]
    exact keepsL_bind (propA_get_keeps hC hR w.2 g1) fun b _ _ => trivial

/-! ### Constants -/

theorem denotes_of_evalL {es : List (TExpr (ZMod p))} {us : List (AVal (ZMod p))} (h : ∀ env, evalL env es = .ok us) : List.Forall₂ Denotes es us := by
  induction es generalizing us with
  | nil => have := h fun _ => none; simp only [evalL] at this; cases this; exact .nil
  | cons e es ih =>
    obtain ⟨a, as, k1, k2, rfl, _⟩ := cons_ok (h fun _ => none)
    refine .cons (fun env => ?_) (ih fun env => ?_)
    · obtain ⟨a', as', g1, g2, g3, _⟩ := cons_ok (h env)
      cases g3; exact g1
    · obtain ⟨a', as', g1, g2, g3, _⟩ := cons_ok (h env)
      cases g3; exact g2

theorem canonL_evalL {es : List (TExpr (ZMod p))} {us : List (AVal (ZMod p))} (hc : IsCanonL es) {env : TEnv p} (h : evalL env es = .ok us) : List.Forall₂ Denotes es us :=
  denotes_of_evalL fun env' => by rw [← h]; exact evalL_congr es (by rw [canonL_vars hc]; simp)

theorem denotes_struct {ms : List (Str × CType)} {es : List (TExpr (ZMod p))} {v : AVal (ZMod p)} (hc : IsCanonL es) (h : Denotes (.struct ms es) v) : ∃ us,
    v = .struct ((ms.map Prod.fst).zip us) ∧ List.Forall₂ Denotes es us := by
  have := h fun _ => none
  simp only [evalT] at this
  obtain ⟨us, h1, h2⟩ := bind_ok this
  cases h2
  exact ⟨us, rfl, canonL_evalL hc h1⟩

theorem denotes_tuple {ts : List CType} {es : List (TExpr (ZMod p))} {v : AVal (ZMod p)} (hc : IsCanonL es) (h : Denotes (.tuple ts es) v) : ∃ us,
    v = .tuple us ∧ List.Forall₂ Denotes es us := by
  have := h fun _ => none
  simp only [evalT] at this
  obtain ⟨us, h1, h2⟩ := bind_ok this
  cases h2
  exact ⟨us, rfl, canonL_evalL hc h1⟩

theorem denotes_inj {c : TExpr (ZMod p)} {v w : AVal (ZMod p)} (h : Denotes c v) (h' : Denotes c w) : v = w := by
  have := h fun _ => none
  rw [h' fun _ => none] at this
  cases this
  rfl

/-- The elements of a constant array. -/
theorem good_array {t : CType} {n : ℕ} {es : List (TSpread (ZMod p))} (h : Good (.array t n es)) : ∃ xs : List (TExpr (ZMod p)), es = xs.map TSpread.expr ∧
    xs.length = n ∧ TypeOk t ∧ (∀ x ∈ xs, x.IsCanon ∧ x.Wt ∧ x.ty = t) ∧ ∀ v, Denotes (.array t n es) v → ∃ vs, v = .array vs ∧ List.Forall₂ Denotes xs vs := by
  obtain ⟨xs, rfl, hx⟩ := isCanonS_map (show IsCanonS es from h.canon)
  obtain ⟨w1, w2, w3⟩ := h.wt
  refine ⟨xs, rfl, (spreadCount_map.mp w2).symm, w1, fun x hx' => ⟨hx x hx', ((wtS_map.mp w3) x hx').2, ((wtS_map.mp w3) x hx').1⟩, fun v hv => ?_⟩
  exact denotes_elems hv

theorem good_array_of {t : CType} {n : ℕ} {xs : List (TExpr (ZMod p))} {vs : List (AVal (ZMod p))} (ht : TypeOk t) (hn : xs.length = n)
    (hx : ∀ x ∈ xs, x.IsCanon ∧ x.Wt ∧ x.ty = t) (hd : List.Forall₂ Denotes xs vs) : Good (.array t n (xs.map TSpread.expr)) where
  canon := by
    change IsCanonS _
    exact isCanonS_iff.mpr fun x h => (hx x h).1
  wt := ⟨ht, spreadCount_map.mpr hn.symm, wtS_map.mpr fun x h => ⟨(hx x h).2.2, (hx x h).2.1⟩⟩
  val := ⟨_, denotes_array hd⟩

theorem forall₂_set {α β : Type} {R : α → β → Prop} {a : List α} {b : List β} (h : List.Forall₂ R a b) (i : ℕ) {x : α} {y : β} (hx : R x y) :
    List.Forall₂ R (a.set i x) (b.set i y) := by
  induction h generalizing i with
  | nil => exact .nil
  | cons h1 h2 ih =>
    cases i with
    | zero => exact .cons hx h2
    | succ i => exact .cons h1 (ih i)

theorem forall₂_at {α β : Type} {R : α → β → Prop} {a : List α} {b : List β} (h : List.Forall₂ R a b) {i : ℕ} {x : α} (hx : a[i]? = some x) : ∃ y, b[i]? = some y ∧
    R x y := by
  induction h generalizing i with
  | nil => cases hx
  | cons h1 h2 ih =>
    cases i with
    | zero => cases hx; exact ⟨_, rfl, h1⟩
    | succ i => exact ih hx

theorem zip_lookup_set : ∀ {ms : List Str} {us : List (AVal (ZMod p))} {m : Str} {w : AVal (ZMod p)}, ms.Nodup → us.length = ms.length →
    (ms.zip us).map (fun kv => if kv.1 = m then (kv.1, w) else kv) = ms.zip (us.set (ms.idxOf m) w)
  | [], us, m, w, _, hl => by simp
  | k :: ms, [], m, w, _, hl => by simp at hl
  | k :: ms, u :: us, m, w, hn, hl => by
    simp only [List.nodup_cons] at hn
    simp only [List.length_cons, Nat.add_right_cancel_iff] at hl
    by_cases hk : k = m
    · subst hk
      simp only [List.zip_cons_cons, List.map_cons, if_true, List.idxOf_cons_self, List.set_cons_zero]
      congr 1
      conv_rhs => rw [← List.map_id (ms.zip us)]
      refine List.map_congr_left fun kv hkv => ?_
      have : kv.1 ∈ ms := (List.of_mem_zip hkv).1
      rw [if_neg]; rfl
      rintro rfl
      exact hn.1 this
    · rw [List.idxOf_cons_ne _ hk]
      simp only [List.zip_cons_cons, List.map_cons, hk, if_false, List.set_cons_succ]
      rw [zip_lookup_set hn.2 hl]

theorem lookup_idx {β : Type} : ∀ {ms : List Str} {es : List β} {m : Str} {e : β}, es.length = ms.length → (ms.zip es).lookup m = some e → es[ms.idxOf m]? = some e
  | [], es, m, e, _, h => by simp at h
  | k :: ms, [], m, e, hl, h => by simp at hl
  | k :: ms, x :: es, m, e, hl, h => by
    simp only [List.length_cons, Nat.add_right_cancel_iff] at hl
    simp only [List.zip_cons_cons, List.lookup_cons] at h
    by_cases hk : k = m
    · subst hk
      simpa using h
    · have hmk : (m == k) = false := by simpa using fun h => hk h.symm
      rw [hmk] at h
      rw [List.idxOf_cons_ne _ hk]
      simpa using lookup_idx hl h

theorem lookup_ty' : ∀ {ms : List (Str × CType)} {es : List (TExpr (ZMod p))} {m : Str} {e : TExpr (ZMod p)}, es.map TExpr.ty = ms.map Prod.snd →
    ((ms.map Prod.fst).zip es).lookup m = some e → ms.lookup m = some e.ty
  | [], es, m, e, h, h2 => by simp at h2
  | (k, u) :: ms, [], m, e, h, h2 => by simp at h
  | (k, u) :: ms, x :: es, m, e, h, h2 => by
    simp only [List.map_cons, List.cons.injEq] at h
    simp only [List.map_cons, List.zip_cons_cons, List.lookup_cons] at h2 ⊢
    split at h2
    · cases h2; rw [h.1]
    · exact lookup_ty' h.2 h2

theorem set_lookup : ∀ {ms : List (Str × CType)} {m : Str} {t : CType}, ms.lookup m = some t → (ms.map Prod.snd).set ((ms.map Prod.fst).idxOf m) t = ms.map Prod.snd
  | [], m, t, h => by simp at h
  | (k, u) :: ms, m, t, h => by
    simp only [List.lookup_cons] at h
    by_cases hk : k = m
    · subst hk
      simp only [beq_self_eq_true] at h
      cases h
      simp
    · have hmk : (m == k) = false := by simpa using fun h => hk h.symm
      rw [hmk] at h
      simp only [List.map_cons]
      rw [List.idxOf_cons_ne _ hk]
      simp only [List.set_cons_succ, set_lookup h]

/-- The constant an assignee denotes. -/
theorem getK_good {C : Consts (ZMod p)} (hC : GoodC C) : ∀ {a : TAssignee (ZMod p)} {c : TExpr (ZMod p)}, getK C a = .ok (some c) → Good c ∧ a.ty = some c.ty
  | .ident x t, c, h => by
    simp only [getK] at h
    split at h
    · rename_i c' hc
      split at h
      · rename_i ht
        cases h
        exact ⟨hC x c hc, by rw [TAssignee.ty, ht]⟩
      · cases h
    · cases h
  | .select a i, c, h => by
    simp only [getK] at h
    obtain ⟨o, h1, h⟩ := pbind_ok h
    cases o with
    | none => cases h
    | some d =>
      simp only at h
      split at h
      · cases h
      · rename_i k hk
        split at h
        · rename_i es he
          obtain ⟨t, n, rfl⟩ := arrayOf_some he
          obtain ⟨g, gt⟩ := getK_good hC h1
          obtain ⟨xs, rfl, hn, ht, hx, hd⟩ := good_array g
          split at h
          · rename_i e hek
            cases h
            have hc : xs[k]? = some c := by simpa [List.getElem?_map] using hek
            obtain ⟨k1, k2, k3⟩ := hx c (List.mem_of_getElem? hc)
            obtain ⟨v, hv⟩ := g.val
            obtain ⟨vs, rfl, hvs⟩ := hd v hv
            obtain ⟨y, _, hy⟩ := forall₂_at hvs hc
            refine ⟨⟨k1, k2, y, hy⟩, ?_⟩
            rw [TAssignee.ty, gt]
            change some t = some c.ty
            rw [k3]
          · cases h
          · cases h
        · cases h
  | .member a m, c, h => by
    simp only [getK] at h
    obtain ⟨o, h1, h⟩ := pbind_ok h
    cases o with
    | none => cases h
    | some d =>
      simp only at h
      split at h
      · rename_i ms es he
        have he := structOf_some he
        subst he
        obtain ⟨g, gt⟩ := getK_good hC h1
        split at h
        · rename_i e hek
          cases h
          obtain ⟨w1, w2, w3⟩ := g.wt
          have hl : es.length = (ms.map Prod.fst).length := by simpa using congrArg List.length w2
          have hc := lookup_idx hl hek
          obtain ⟨v, hv⟩ := g.val
          have hcl : IsCanonL es := g.canon
          obtain ⟨us, rfl, hus⟩ := denotes_struct hcl hv
          obtain ⟨y, _, hy⟩ := forall₂_at hus hc
          refine ⟨⟨isCanonL_iff.mp hcl c (List.mem_of_getElem? hc), wtL_all.mp w3 c (List.mem_of_getElem? hc), y, hy⟩, ?_⟩
          simp only [TAssignee.ty, gt, TExpr.ty]
          exact lookup_ty' w2 hek
        · cases h
      · cases h
  | .element a i, c, h => by
    simp only [getK] at h
    obtain ⟨o, h1, h⟩ := pbind_ok h
    cases o with
    | none => cases h
    | some d =>
      simp only at h
      split at h
      · rename_i es he
        obtain ⟨ts, rfl⟩ := tupleOf_some he
        obtain ⟨g, gt⟩ := getK_good hC h1
        split at h
        · rename_i e hek
          cases h
          obtain ⟨w2, w3⟩ := g.wt
          obtain ⟨v, hv⟩ := g.val
          have hcl : IsCanonL es := g.canon
          obtain ⟨us, rfl, hus⟩ := denotes_tuple hcl hv
          obtain ⟨y, _, hy⟩ := forall₂_at hus hek
          refine ⟨⟨isCanonL_iff.mp hcl c (List.mem_of_getElem? hek), wtL_all.mp w3 c (List.mem_of_getElem? hek), y, hy⟩, ?_⟩
          simp only [TAssignee.ty, gt, TExpr.ty, ← w2, List.getElem?_map, hek, Option.map_some]
        · cases h
      · cases h

theorem litU_index {env : TEnv p} {e : TExpr (ZMod p)} {k n : ℕ} (h : e.litU = some k) (hv : evalT env e = .ok (.uint .b32 n)) : n = k := by
  obtain ⟨w, rfl⟩ := litU_some h
  simp only [evalT] at hv
  cases hv
  rfl

theorem getK_val {C : Consts (ZMod p)} (hC : GoodC C) {env : TEnv p} (hR : EnvRel C env env) : ∀ {a : TAssignee (ZMod p)} {c : TExpr (ZMod p)} {v : AVal (ZMod p)},
    getK C a = .ok (some c) → getA env a = .ok v → Denotes c v
  | .ident x t, c, v, h, hv => by
    simp only [getK] at h
    split at h
    · rename_i c' hc
      split at h
      · cases h
        simp only [getA] at hv
        obtain ⟨h1, h2⟩ := ident_ok hv
        obtain ⟨v', g1, g2⟩ := hR.const x c hc
        rw [h1] at g1
        cases g1
        exact g2
      · cases h
    · cases h
  | .select a i, c, v, h, hv => by
    simp only [getK] at h
    obtain ⟨o, h1, h⟩ := pbind_ok h
    obtain ⟨vs, k', g1, g2, g3⟩ := selA_ok hv
    cases o with
    | none => cases h
    | some d =>
      simp only at h
      split at h
      · cases h
      · rename_i k hk
        have := litU_index hk g2
        subst this
        split at h
        · rename_i es he
          obtain ⟨t, n, rfl⟩ := arrayOf_some he
          obtain ⟨g, gt⟩ := getK_good hC h1
          obtain ⟨xs, rfl, hn, ht, hx, hd⟩ := good_array g
          obtain ⟨vs', e1, hvs⟩ := hd _ (getK_val hC hR h1 g1)
          cases e1
          split at h
          · rename_i e hek
            cases h
            have hc : xs[k']? = some c := by simpa [List.getElem?_map] using hek
            exact forall₂_get hvs hc g3
          · cases h
          · cases h
        · cases h
  | .member a m, c, v, h, hv => by
    simp only [getK] at h
    obtain ⟨o, h1, h⟩ := pbind_ok h
    obtain ⟨vs, g1, g2⟩ := memA_ok hv
    cases o with
    | none => cases h
    | some d =>
      simp only at h
      split at h
      · rename_i ms es he
        have he := structOf_some he
        subst he
        obtain ⟨g, gt⟩ := getK_good hC h1
        split at h
        · rename_i e hek
          cases h
          have hcl : IsCanonL es := g.canon
          obtain ⟨us, e1, hus⟩ := denotes_struct hcl (getK_val hC hR h1 g1)
          cases e1
          exact forall₂_lookup hus hek g2
        · cases h
      · cases h
  | .element a i, c, v, h, hv => by
    simp only [getK] at h
    obtain ⟨o, h1, h⟩ := pbind_ok h
    obtain ⟨vs, g1, g2⟩ := elemA_ok hv
    cases o with
    | none => cases h
    | some d =>
      simp only at h
      split at h
      · rename_i es he
        obtain ⟨ts, rfl⟩ := tupleOf_some he
        obtain ⟨g, gt⟩ := getK_good hC h1
        split at h
        · rename_i e hek
          cases h
          have hcl : IsCanonL es := g.canon
          obtain ⟨us, e1, hus⟩ := denotes_tuple hcl (getK_val hC hR h1 g1)
          cases e1
          exact forall₂_get hus hek g2
        · cases h
      · cases h

theorem mem_set_cases {α : Type} {l : List α} {i : ℕ} {a x : α} (h : x ∈ l.set i a) : x ∈ l ∨ x = a := List.mem_or_eq_of_mem_set h

/-- The constant behind the assignment is well-typed. -/
theorem setK_good {C : Consts (ZMod p)} (hC : GoodC C) : ∀ {a : TAssignee (ZMod p)} {new c : TExpr (ZMod p)}, Good new → a.ty = some new.ty → setK C a new = .ok c →
    Good c ∧ c.ty = a.rootTy
  | .ident x t, new, c, hn, ht, h => by
    simp only [setK] at h
    cases h
    simp only [TAssignee.ty, Option.some.injEq] at ht
    exact ⟨hn, by rw [TAssignee.rootTy, ht]⟩
  | .select a i, new, c, hn, ht, h => by
    simp only [setK] at h
    obtain ⟨o, h1, h⟩ := pbind_ok h
    split at h
    · rename_i t n es
      split at h
      · rename_i k hk
        obtain ⟨g, gt⟩ := getK_good hC h1
        obtain ⟨xs, rfl, hl, hT, hx, hd⟩ := good_array g
        simp only [TAssignee.ty, gt, TExpr.ty, Option.some.injEq] at ht
        have e1 : (xs.map TSpread.expr).set k (.expr new) = (xs.set k new).map TSpread.expr := by rw [List.map_set]
        rw [e1] at h
        obtain ⟨v, hv⟩ := g.val
        obtain ⟨vs, rfl, hvs⟩ := hd v hv
        obtain ⟨w, hw⟩ := hn.val
        have := good_array_of (t := t) (n := n) hT (by rw [List.length_set, hl]) (fun x hx' => by
          rcases mem_set_cases hx' with h | rfl
          · exact hx x h
          · exact ⟨hn.canon, hn.wt, ht.symm⟩) (forall₂_set hvs k hw)
        exact setK_good hC (a := a) this (by rw [gt]; rfl) h
      · cases h
    · cases h
  | .member a m, new, c, hn, ht, h => by
    simp only [setK] at h
    obtain ⟨o, h1, h⟩ := pbind_ok h
    split at h
    · rename_i ms es
      obtain ⟨g, gt⟩ := getK_good hC h1
      obtain ⟨w1, w2, w3⟩ := g.wt
      simp only [TAssignee.ty, gt, TExpr.ty] at ht
      obtain ⟨v, hv⟩ := g.val
      have hcl : IsCanonL es := g.canon
      obtain ⟨us, rfl, hus⟩ := denotes_struct hcl hv
      obtain ⟨w, hw⟩ := hn.val
      refine setK_good hC (a := a) (new := .struct ms (es.set ((ms.map Prod.fst).idxOf m) new)) ⟨?_, ⟨w1, ?_, ?_⟩, .struct ((ms.map Prod.fst).zip (us.set ((ms.map Prod.fst).idxOf m) w)), fun env => ?_⟩ (by rw [gt]; rfl) h
      · change IsCanonL _
        refine isCanonL_iff.mpr fun x hx => ?_
        rcases mem_set_cases hx with h | rfl
        · exact isCanonL_iff.mp hcl x h
        · exact hn.canon
      · rw [List.map_set, w2]
        exact set_lookup ht
      · refine wtL_all.mpr fun x hx => ?_
        rcases mem_set_cases hx with h | rfl
        · exact wtL_all.mp w3 x h
        · exact hn.wt
      · simp only [evalT, denotes_evalL (forall₂_set hus _ hw) env]
        rfl
    · cases h
  | .element a i, new, c, hn, ht, h => by
    simp only [setK] at h
    obtain ⟨o, h1, h⟩ := pbind_ok h
    split at h
    · rename_i ts es
      obtain ⟨g, gt⟩ := getK_good hC h1
      obtain ⟨w2, w3⟩ := g.wt
      rw [TAssignee.ty, gt] at ht
      change ts[i]? = some new.ty at ht
      obtain ⟨v, hv⟩ := g.val
      have hcl : IsCanonL es := g.canon
      obtain ⟨us, rfl, hus⟩ := denotes_tuple hcl hv
      obtain ⟨w, hw⟩ := hn.val
      refine setK_good hC (a := a) (new := .tuple ts (es.set i new)) ⟨?_, ⟨?_, ?_⟩, .tuple (us.set i w), fun env => ?_⟩ (by rw [gt]; rfl) h
      · change IsCanonL _
        refine isCanonL_iff.mpr fun x hx => ?_
        rcases mem_set_cases hx with h | rfl
        · exact isCanonL_iff.mp hcl x h
        · exact hn.canon
      · rw [List.map_set, w2]
        obtain ⟨hi, e⟩ := List.getElem?_eq_some_iff.mp ht
        rw [← e, List.set_getElem_self]
      · refine wtL_all.mpr fun x hx => ?_
        rcases mem_set_cases hx with h | rfl
        · exact wtL_all.mp w3 x h
        · exact hn.wt
      · simp only [evalT, denotes_evalL (forall₂_set hus _ hw) env]
        rfl
    · cases h

/-- The constant behind the assignment is the value of the variable behind it. -/
theorem setK_val {C : Consts (ZMod p)} (hC : GoodC C) {env : TEnv p} (hR : EnvRel C env env) : ∀ {a : TAssignee (ZMod p)} {new c : TExpr (ZMod p)} {w u : AVal (ZMod p)},
    setK C a new = .ok c → Denotes new w → setA env a w = .ok u → Denotes c u
  | .ident x t, new, c, w, u, h, hw, hv => by
    simp only [setK] at h
    cases h
    simp only [setA] at hv
    cases hv
    exact hw
  | .select a i, new, c, w, u, h, hw, hv => by
    simp only [setK] at h
    obtain ⟨o, h1, h⟩ := pbind_ok h
    obtain ⟨vs, k', g1, g2, g3, g4⟩ := selS_ok hv
    split at h
    · rename_i t n es
      split at h
      · rename_i k hk
        have := litU_index hk g2
        subst this
        obtain ⟨g, gt⟩ := getK_good hC h1
        obtain ⟨xs, rfl, hl, hT, hx, hd⟩ := good_array g
        obtain ⟨vs', e1, hvs⟩ := hd _ (getK_val hC hR h1 g1)
        cases e1
        have e1 : (xs.map TSpread.expr).set k' (.expr new) = (xs.set k' new).map TSpread.expr := by rw [List.map_set]
        rw [e1] at h
        exact setK_val hC hR h (denotes_array (forall₂_set hvs k' hw)) g4
      · cases h
    · cases h
  | .member a m, new, c, w, u, h, hw, hv => by
    simp only [setK] at h
    obtain ⟨o, h1, h⟩ := pbind_ok h
    obtain ⟨vs, g1, g2⟩ := memS_ok hv
    split at h
    · rename_i ms es
      obtain ⟨g, gt⟩ := getK_good hC h1
      obtain ⟨w1, w2, w3⟩ := g.wt
      have hcl : IsCanonL es := g.canon
      obtain ⟨us, e1, hus⟩ := denotes_struct hcl (getK_val hC hR h1 g1)
      cases e1
      have hl : us.length = (ms.map Prod.fst).length := by
        rw [← hus.length_eq]
        simpa using congrArg List.length w2
      rw [zip_lookup_set w1 hl] at g2
      refine setK_val hC hR h (fun env => ?_) g2
      simp only [evalT, denotes_evalL (forall₂_set hus _ hw) env]
      rfl
    · cases h
  | .element a i, new, c, w, u, h, hw, hv => by
    simp only [setK] at h
    obtain ⟨o, h1, h⟩ := pbind_ok h
    obtain ⟨vs, g1, g2⟩ := elemS_ok hv
    split at h
    · rename_i ts es
      obtain ⟨g, gt⟩ := getK_good hC h1
      have hcl : IsCanonL es := g.canon
      obtain ⟨us, e1, hus⟩ := denotes_tuple hcl (getK_val hC hR h1 g1)
      cases e1
      refine setK_val hC hR h (fun env => ?_) g2
      simp only [evalT, denotes_evalL (forall₂_set hus _ hw) env]
      rfl
    · cases h

theorem getK_undetected {C : Consts (ZMod p)} : ∀ {a : TAssignee (ZMod p)} {er : PErr}, getK C a = .error er → ¬ er.Detected
  | .ident x t, er, h => by
    simp only [getK] at h
    split at h
    · split at h
      · cases h
      · cases h; simp [PErr.Detected]
    · cases h
  | .select a i, er, h => by
    simp only [getK] at h
    rcases perr_bind h with h | ⟨o, _, h⟩
    · exact getK_undetected h
    · repeat' split at h
      all_goals first | cases h; simp [PErr.Detected] | cases h
  | .member a m, er, h => by
    simp only [getK] at h
    rcases perr_bind h with h | ⟨o, _, h⟩
    · exact getK_undetected h
    · repeat' split at h
      all_goals first | cases h; simp [PErr.Detected] | cases h
  | .element a i, er, h => by
    simp only [getK] at h
    rcases perr_bind h with h | ⟨o, _, h⟩
    · exact getK_undetected h
    · repeat' split at h
      all_goals first | cases h; simp [PErr.Detected] | cases h

theorem setK_undetected {C : Consts (ZMod p)} : ∀ {a : TAssignee (ZMod p)} {new : TExpr (ZMod p)} {er : PErr}, setK C a new = .error er → ¬ er.Detected
  | .ident x t, new, er, h => by simp only [setK] at h; cases h
  | .select a i, new, er, h => by
    simp only [setK] at h
    rcases perr_bind h with h | ⟨o, _, h⟩
    · exact getK_undetected h
    · split at h
      · split at h
        · exact setK_undetected h
        · cases h; simp [PErr.Detected]
      · cases h; simp [PErr.Detected]
  | .member a m, new, er, h => by
    simp only [setK] at h
    rcases perr_bind h with h | ⟨o, _, h⟩
    · exact getK_undetected h
    · split at h
      · exact setK_undetected h
      · cases h; simp [PErr.Detected]
  | .element a i, new, er, h => by
    simp only [setK] at h
    rcases perr_bind h with h | ⟨o, _, h⟩
    · exact getK_undetected h
    · split at h
      · exact setK_undetected h
      · cases h; simp [PErr.Detected]

end Zok.Typed
