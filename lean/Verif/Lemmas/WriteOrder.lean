import Verif.Lemmas.FlattenTypesIds
import Verif.Lemmas.ConditionRedefinerShape

/-
The definitions which replace assignments with indices that are not literals, once their conditions are variables, assign component by component: each
component only reads itself, besides what does not belong to the assigned variable.
-/

set_option linter.unusedSectionVars false
set_option linter.unusedSimpArgs false

namespace Zok.Typed
open Abi Dce
variable {p : ℕ} [Fact p.Prime] {nm : SId → ZId} {cid : ℕ → TId} {x : TId}

/-- The expression reads no component of `x` but the given one. -/
def Own (nm : SId → ZId) (x : TId) (q : SId × ZType) (e : ZExpr (ZMod p)) : Prop := ∀ y ∈ idsZ e, (∃ s : SId, s.root = x ∧ y = nm s) → y = nm q.1

/-- `base` is the component `id` of a variable. -/
structure BaseAt (nm : SId → ZId) (cid : ℕ → TId) (base : TExpr (ZMod p)) (id : SId) (l : List (SId × ZType)) : Prop where
  ids : flatIds base.ty id = some l
  flat : flat nm base = some (l.map (identExpr nm))
  same : ∀ n, redefE cid n base = (base, [])

theorem slice_map {α β : Type _} (f : α → β) (l : List α) (a b : ℕ) : Abi.slice (l.map f) a b = (Abi.slice l a b).map (List.map f) := by
  simp only [Abi.slice, List.length_map]
  split <;> simp [List.map_take, List.map_drop]

theorem component_map {α β : Type _} (f : α → β) (pre : List CType) (t : CType) (l : List α) : component pre t (l.map f) = (component pre t l).map (List.map f) := by
  simp only [component]
  split
  · exact slice_map f l _ _
  · rfl

theorem BaseAt.select {base : TExpr (ZMod p)} {id : SId} {l : List (SId × ZType)} (h : BaseAt nm cid base id l) {n : ℕ} {t : CType} {c k : ℕ} (ht : base.ty = .array n t)
    (hc : primCount t = some c) (hk : k < n) : ∃ m, BaseAt nm cid (.select t base (.uval .b32 k)) (.select id k) m := by
  have hi := h.ids
  rw [ht] at hi
  simp only [flatIds] at hi
  have hlen : ∀ o ∈ (List.range n).map fun i => flatIds t (.select id i), ∀ l, o = some l → l.length = c := by
    intro o ho m hm
    obtain ⟨i, _, rfl⟩ := List.mem_map.1 ho
    obtain ⟨l, h1, h2⟩ := flatIds_len t c (.select id i) hc
    rw [h1] at hm; cases hm; exact h2
  have hl := concatO_length hlen hi
  rw [List.length_map, List.length_range] at hl
  obtain ⟨m, h1, h2⟩ := concatO_slice (k := k) hlen hi (by simpa using hk)
  rw [List.getElem?_map, List.getElem?_range hk] at h1
  simp only [Option.map_some, Option.some.injEq] at h1
  refine ⟨m, h1, ?_, fun n => ?_⟩
  · simp only [Typed.flat, ht, hc, h.flat, Option.bind_some, popU, List.getLast?_singleton, selectZs, UExpr.inner]
    rw [slice_map]
    simp only [Abi.slice]
    rw [if_pos (by rw [hl]; exact Nat.mul_le_mul_right _ (by omega)), h2]
    rfl
  · simp only [redefE, h.same]
    rfl

theorem component_mid' {α : Type _} {pre : List CType} {t : CType} {a y b : List α} {o c : ℕ} (ho : primCountL pre = some o) (hc : primCount t = some c)
    (ha : a.length = o) (hx : y.length = c) : component pre t (a ++ (y ++ b)) = some y := by
  simp only [component, ho, hc, Abi.slice]
  rw [if_pos (by simp only [List.length_append]; omega), ← ha, ← hx, drop_take_mid]

theorem BaseAt.member {base : TExpr (ZMod p)} {id : SId} {l : List (SId × ZType)} (h : BaseAt nm cid base id l) {ms : List (Str × CType)} {m : Str} {t : CType}
    (ht : base.ty = .struct ms) (tok : TypeOk base.ty) (hk : ms.lookup m = some t) : ∃ l', BaseAt nm cid (.member t base m) (.member id m) l' := by
  have hi := h.ids
  rw [ht] at hi tok
  simp only [flatIds] at hi
  obtain ⟨pre, hm⟩ := memberSplit_some hk
  obtain ⟨⟨us, h1⟩, _⟩ := memberSplit_ty hm
  have hcm := tok.2
  rw [primCount, primCountM_eq] at hcm
  have hpre : (primCountL pre).isSome := by
    apply primCountL_of
    intro t' ht'
    obtain ⟨j, hj⟩ := List.getElem?_of_mem (show t' ∈ ms.map Prod.snd by rw [h1]; exact List.mem_append_left _ ht')
    exact primCountL_get hcm hj
  obtain ⟨o, ho⟩ := Option.isSome_iff_exists.1 hpre
  obtain ⟨c, hc⟩ := Option.isSome_iff_exists.1 (tok.member hk).2
  obtain ⟨a, y, b, e1, e2, e3⟩ := flatIdsM_component hc id hm hi ho
  obtain ⟨y', e4, e5⟩ := flatIds_len t c (.member id m) hc
  rw [e3] at e4; cases e4
  refine ⟨y, e3, ?_, fun n => ?_⟩
  · simp only [Typed.flat, ht, hm, h.flat]
    rw [component_map, e1, component_mid' ho hc e2 e5]
    rfl
  · simp only [redefE, h.same]

theorem BaseAt.element {base : TExpr (ZMod p)} {id : SId} {l : List (SId × ZType)} (h : BaseAt nm cid base id l) {ts : List CType} {i : ℕ} {t : CType}
    (ht : base.ty = .tuple ts) (tok : TypeOk base.ty) (hk : ts[i]? = some t) : ∃ l', BaseAt nm cid (.element t base i) (.element id i) l' := by
  have hi := h.ids
  rw [ht] at hi tok
  simp only [flatIds] at hi
  have hcm := tok.2
  rw [primCount] at hcm
  have hpre : (primCountL (ts.take i)).isSome := by
    apply primCountL_of
    intro t' ht'
    obtain ⟨j, hj⟩ := List.getElem?_of_mem (List.mem_of_mem_take ht')
    exact primCountL_get hcm hj
  obtain ⟨o, ho⟩ := Option.isSome_iff_exists.1 hpre
  obtain ⟨c, hc⟩ := Option.isSome_iff_exists.1 (tok.element hk).2
  obtain ⟨a, y, b, e1, e2, e3⟩ := flatIdsT_component hc id hk hi ho
  rw [Nat.zero_add] at e3
  obtain ⟨y', e4, e5⟩ := flatIds_len t c (.element id i) hc
  rw [e3] at e4; cases e4
  refine ⟨y, e3, ?_, fun n => ?_⟩
  · simp only [Typed.flat, ht, hk, h.flat]
    rw [component_map, e1, component_mid' ho hc e2 e5]
    rfl
  · simp only [redefE, h.same]

theorem own_ident (q : SId × ZType) : Own (p := p) nm x q (identExpr nm q) := by
  intro y hy _
  rw [identExpr_ids, List.mem_singleton] at hy
  exact hy

theorem own_idents (l : List (SId × ZType)) : List.Forall₂ (Own (p := p) nm x) l (l.map (identExpr nm)) := by
  induction l with
  | nil => exact .nil
  | cons q l ih => exact .cons (own_ident q) ih

theorem condZs_own {c : BExpr (ZMod p)} (hc : ∀ y ∈ idsB c, ¬ ∃ s : SId, s.root = x ∧ y = nm s) : ∀ {m : List (SId × ZType)} {as bs zs : List (ZExpr (ZMod p))},
    List.Forall₂ (Own nm x) m as → List.Forall₂ (Own nm x) m bs → condZs c as bs = some zs → List.Forall₂ (Own nm x) m zs
  | [], as, bs, zs, h1, h2, h => by
    cases h1; cases h2
    simp only [condZs] at h; cases h; exact .nil
  | q :: m, as, bs, zs, h1, h2, h => by
    cases h1 with
    | cons a1 a2 => cases h2 with
      | cons b1 b2 =>
        simp only [condZs] at h
        split at h
        · rename_i e es he hes
          cases h
          refine .cons ?_ (condZs_own hc a2 b2 hes)
          intro y hy hs
          rw [condZ_ids he] at hy
          rcases List.mem_append.1 hy with hy | hy
          · rcases List.mem_append.1 hy with hy | hy
            · exact absurd hs (hc y hy)
            · exact a1 y hy hs
          · exact b1 y hy hs
        · cases h

theorem cond_redef (n : ℕ) (t : CType) (a b e base : TExpr (ZMod p)) (h : ∀ n, redefE cid n base = (base, [])) :
    ∃ j k, (redefE cid n (.cond t (.eq a b) e base)).1 = .cond t (.ident (cid j) .bool) (redefE cid k e).1 base := by
  simp only [redefE, newCondition, h]
  exact ⟨_, _, rfl⟩

theorem cond_own (hnm : Function.Injective nm) (hx : ∀ k, x ≠ cid k) {t : CType} {j : ℕ} {e base : TExpr (ZMod p)} {m : List (SId × ZType)} {zs : List (ZExpr (ZMod p))}
    (hb : flat nm base = some (m.map (identExpr nm))) (he : ∀ zs, flat nm e = some zs → List.Forall₂ (Own nm x) m zs)
    (h : flat nm (.cond t (.ident (cid j) .bool) e base) = some zs) : List.Forall₂ (Own nm x) m zs := by
  simp only [flat, hb] at h
  split at h
  · rename_i c as bs hc ha hbs
    cases hbs
    refine condZs_own ?_ (he as ha) (own_idents m) h
    simp only [flatIds, Option.map_some, Option.bind_some, List.map_cons, List.map_nil, popB, List.getLast?_singleton, identExpr, Option.some.injEq] at hc
    subst hc
    rintro y hy ⟨s, h1, h2⟩
    simp only [idsB, List.mem_singleton] at hy
    rw [hy] at h2
    rw [← hnm h2] at h1
    exact hx j h1.symm
  · cases h

/-- What `chooseMany` returns reads, in each component, no other component of the assigned variable. -/
theorem chooseMany_own (hnm : Function.Injective nm) (hx : ∀ k, x ≠ cid k) {new : TExpr (ZMod p)} (hn : new.Wt)
    (hnew : ∀ n zs, flat nm (redefE cid n new).1 = some zs → IdsIn (fun y => ¬ ∃ s : SId, s.root = x ∧ y = nm s) zs) :
    ∀ {as : List (Access (ZMod p))} {base e : TExpr (ZMod p)} {id : SId} {l : List (SId × ZType)} {n : ℕ} {zs : List (ZExpr (ZMod p))}, BaseAt nm cid base id l →
    TypeOk base.ty → accTy as base.ty = some new.ty → chooseMany as base new = some e → flat nm (redefE cid n e).1 = some zs → List.Forall₂ (Own nm x) l zs
  | [], base, e, id, l, n, zs, hb, tok, ht, hm, hf => by
    simp only [chooseMany, Option.some.injEq] at hm
    subst hm
    simp only [accTy, Option.some.injEq] at ht
    have h1 := hnew n zs hf
    have h2 := (flat_typed _ zs (redefE_wt new n hn).2 hf).length_eq
    rw [redefE_ty, ← ht] at h2
    obtain ⟨c, hc⟩ := Option.isSome_iff_exists.1 tok.2
    obtain ⟨l', h3, h4⟩ := flatIds_len base.ty c id hc
    rw [hb.ids] at h3; cases h3
    rw [primTys_len hc, ← h4] at h2
    refine List.forall₂_iff_zip.2 ⟨h2.symm, fun {q z} hz => ?_⟩
    intro y hy hs
    exact absurd hs (h1 z (List.of_mem_zip hz).2 y hy)
  | .select i :: as, base, e, id, l, n, zs, hb, tok, ht, hm, hf => by
    simp only [chooseMany] at hm
    cases hty : base.ty with
    | array size t =>
      rw [hty] at hm tok ht
      simp only [accTy] at ht
      obtain ⟨es, hes, rfl⟩ := Option.map_eq_some_iff.1 hm
      obtain ⟨c, hc⟩ := Option.isSome_iff_exists.1 tok.array.2
      simp only [redefE, flat] at hf
      split at hf
      · rename_i l0 c0 hl0 _
        split at hf
        · cases hf
          have hids := hb.ids
          rw [hty] at hids
          simp only [flatIds] at hids
          have key : ∀ (ks : List ℕ) (es : List (TSpread (ZMod p))) (l : List (SId × ZType)) (n : ℕ) (zs : List (ZExpr (ZMod p))), (∀ k ∈ ks, k < size) →
              List.Forall₂ (fun k s => ((chooseMany as (.select t base (.uval .b32 k)) new).map fun e =>
                TSpread.expr (.cond t (.eq (.uval .b32 k) i) e (.select t base (.uval .b32 k)))) = some s) ks es →
              concatO (ks.map fun k => flatIds t (.select id k)) = some l → flatS nm (redefS cid n es).1 = some zs → List.Forall₂ (Own nm x) l zs := by
            intro ks
            induction ks with
            | nil =>
              intro es l n zs _ h1 h2 h3
              cases h1
              simp only [List.map_nil, concatO] at h2
              cases h2
              simp only [redefS, flatS] at h3
              cases h3
              exact .nil
            | cons k ks ih =>
              intro es l n zs hks h1 h2 h3
              cases h1 with
              | @cons _ s0 _ es g1 g2 =>
              obtain ⟨e, he, rfl⟩ := Option.map_eq_some_iff.1 g1
              rw [List.map_cons] at h2
              obtain ⟨l1, l2, i1, i2, rfl⟩ := concatO_cons h2
              obtain ⟨m, hm'⟩ := hb.select hty hc (hks k (by simp))
              have hmi : flatIds t (.select id k) = some m := hm'.ids
              have hml : l1 = m := Option.some.inj (i1.symm.trans hmi)
              subst hml
              simp only [redefS, flatS] at h3
              split at h3
              · rename_i z1 z2 hz1 hz2
                cases h3
                refine List.rel_append ?_ ?_
                · obtain ⟨j, k', hj⟩ := cond_redef (cid := cid) n t (.uval .b32 k) i e (.select t base (.uval .b32 k)) hm'.same
                  rw [hj] at hz1
                  exact cond_own hnm hx hm'.flat (fun zs hz => chooseMany_own hnm hx hn hnew hm' tok.array ht he hz) hz1
                · exact ih es l2 _ z2 (fun k hk => hks k (by simp [hk])) g2 i2 hz2
              · cases h3
          exact key _ es l n zs (fun k hk => by simpa using hk) (mapM_forall₂ hes) hids hl0
        · cases hf
      · cases hf
    | _ => rw [hty] at hm; cases hm
  | .member i :: as, base, e, id, l, n, zs, hb, tok, ht, hm, hf => by
    simp only [chooseMany] at hm
    cases hty : base.ty with
    | struct ms =>
      rw [hty] at hm ht
      simp only [accTy] at ht
      obtain ⟨t, hl, hat⟩ := Option.bind_eq_some_iff.1 ht
      obtain ⟨es, hes, rfl⟩ := Option.map_eq_some_iff.1 hm
      simp only [redefE, flat] at hf
      have tok' := tok
      rw [hty] at tok'
      have hd := tok'.1.1
      simp only [CType.Distinct] at hd
      have hids := hb.ids
      rw [hty] at hids
      simp only [flatIds] at hids
      have key : ∀ (ks : List (Str × CType)) (es : List (TExpr (ZMod p))) (l : List (SId × ZType)) (n : ℕ) (zs : List (ZExpr (ZMod p))), (∀ k ∈ ks, k ∈ ms) →
          List.Forall₂ (fun kt e => (if kt.1 = i then chooseMany as (.member kt.2 base i) new else some (.member kt.2 base kt.1)) = some e) ks es →
          flatIdsM ks id = some l → flatL nm (redefL cid n es).1 = some zs → List.Forall₂ (Own nm x) l zs := by
        intro ks
        induction ks with
        | nil =>
          intro es l n zs _ h1 h2 h3
          cases h1
          simp only [flatIdsM] at h2
          cases h2
          simp only [redefL, flatL] at h3
          cases h3
          exact .nil
        | cons k ks ih =>
          intro es l n zs hks h1 h2 h3
          obtain ⟨k, t1⟩ := k
          have hl1 := lookup_notMem hd.1 (hks (k, t1) (by simp))
          obtain ⟨m, hm'⟩ := hb.member hty tok hl1
          have hmi : flatIds t1 (.member id k) = some m := hm'.ids
          cases h1 with
          | @cons _ e _ es g1 g2 =>
          simp only [flatIdsM, hmi] at h2
          split at h2
          · rename_i l1 l2 i1 i2
            cases i1
            cases h2
            simp only [redefL, flatL] at h3
            split at h3
            · rename_i z1 z2 hz1 hz2
              cases h3
              refine List.rel_append ?_ (ih es l2 _ z2 (fun k hk => hks k (by simp [hk])) g2 i2 hz2)
              simp only at g1
              split at g1
              · rename_i hki
                subst hki
                rw [hl] at hl1
                cases hl1
                exact chooseMany_own hnm hx hn hnew hm' (by simp only [TExpr.ty]; exact tok'.member hl) hat g1 hz1
              · cases g1
                rw [hm'.same, hm'.flat] at hz1
                cases hz1
                exact own_idents m
            · cases h3
          · cases h2
      exact key _ es l n zs (fun k hk => hk) (mapM_forall₂ hes) hids hf
    | _ => rw [hty] at hm; cases hm
  | .element i :: as, base, e, id, l, n, zs, hb, tok, ht, hm, hf => by
    simp only [chooseMany] at hm
    cases hty : base.ty with
    | tuple ts =>
      rw [hty] at hm ht
      simp only [accTy] at ht
      obtain ⟨t, hl, hat⟩ := Option.bind_eq_some_iff.1 ht
      obtain ⟨es, hes, rfl⟩ := Option.map_eq_some_iff.1 hm
      simp only [redefE, flat] at hf
      have tok' := tok
      rw [hty] at tok'
      have hids := hb.ids
      rw [hty] at hids
      simp only [flatIds] at hids
      have key : ∀ (ks : List CType) (d : ℕ) (es : List (TExpr (ZMod p))) (l : List (SId × ZType)) (n : ℕ) (zs : List (ZExpr (ZMod p))),
          (∀ k ∈ ks.zipIdx d, ts[k.2]? = some k.1) →
          List.Forall₂ (fun ti e => (if ti.2 = i then chooseMany as (.element ti.1 base i) new else some (.element ti.1 base ti.2)) = some e) (ks.zipIdx d) es →
          flatIdsT ks id d = some l → flatL nm (redefL cid n es).1 = some zs → List.Forall₂ (Own nm x) l zs := by
        intro ks
        induction ks with
        | nil =>
          intro d es l n zs _ h1 h2 h3
          cases h1
          simp only [flatIdsT] at h2
          cases h2
          simp only [redefL, flatL] at h3
          cases h3
          exact .nil
        | cons t1 ks ih =>
          intro d es l n zs hks h1 h2 h3
          rw [List.zipIdx_cons] at h1 hks
          have hl1 : ts[d]? = some t1 := hks (t1, d) (by simp)
          obtain ⟨m, hm'⟩ := hb.element hty tok hl1
          have hmi : flatIds t1 (.element id d) = some m := hm'.ids
          cases h1 with
          | @cons _ e _ es g1 g2 =>
          simp only [flatIdsT, hmi] at h2
          split at h2
          · rename_i l1 l2 i1 i2
            cases i1
            cases h2
            simp only [redefL, flatL] at h3
            split at h3
            · rename_i z1 z2 hz1 hz2
              cases h3
              refine List.rel_append ?_ (ih (d + 1) es l2 _ z2 (fun k hk => hks k (by simp [hk])) g2 i2 hz2)
              simp only at g1
              split at g1
              · rename_i hki
                subst hki
                rw [hl] at hl1
                cases hl1
                exact chooseMany_own hnm hx hn hnew hm' (by simp only [TExpr.ty]; exact tok'.element hl) hat g1 hz1
              · cases g1
                rw [hm'.same, hm'.flat] at hz1
                cases hz1
                exact own_idents m
            · cases h3
          · cases h2
      exact key ts 0 es l n zs (fun k hk => zipIdx_mem hk) (mapM_forall₂ hes) hids hf
    | _ => rw [hty] at hm; cases hm

theorem flatIds_nodup {t : CType} {id : SId} {l : List (SId × ZType)} (tok : TypeOk t) (h : flatIds t id = some l) : (l.map Prod.fst).Nodup := by
  obtain ⟨v, hv⟩ := exists_value (p := 2) tok.2
  rw [flatIds_leaves t v id l hv h]
  have := leaves_nodup t v id tok.1.1 hv
  rw [List.map_map]
  exact this

/-- Components which only read themselves are read before they are written. -/
theorem own_readBeforeWrite (hnm : Function.Injective nm) : ∀ {l : List (SId × ZType)} {zs : List (ZExpr (ZMod p))}, (∀ q ∈ l, q.1.root = x) →
    (l.map Prod.fst).Nodup → List.Forall₂ (Own nm x) l zs → ReadBeforeWrite (l.map fun q => nm q.1) zs
  | [], zs, _, _, _ => by cases zs <;> trivial
  | q :: l, zs, hr, hn, h => by
    cases h with
    | @cons _ z _ zs h1 h2 =>
    simp only [List.map_cons, List.nodup_cons] at hn
    refine ⟨fun e he hy => ?_, own_readBeforeWrite hnm (fun q hq => hr q (by simp [hq])) hn.2 h2⟩
    obtain ⟨i, hi, rfl⟩ := List.mem_iff_getElem.1 he
    have hl := h2.length_eq
    have h3 := (List.forall₂_iff_get.1 h2).2 i (by omega) hi
    have h4 := h3 (nm q.1) hy ⟨q.1, hr q (by simp), rfl⟩
    apply hn.1
    rw [hnm h4]
    exact List.mem_map_of_mem (by simp)

/-- The definition which replaces an assignment with an index that is not a literal. -/
theorem written_simultaneous (hnm : Function.Injective nm) (hc : Function.Injective cid) {t : CType} {as : List (Access (ZMod p))} {new e : TExpr (ZMod p)} {n : ℕ}
    (hx : ∀ k, x ≠ cid k) (hn : new.Wt) (hv : NoCid cid new.vars) (hxn : x ∉ new.vars) (tok : TypeOk t) (ht : accTy as t = some new.ty)
    (hm : chooseMany as (.ident x t) new = some e) {zs : List (ZExpr (ZMod p))} (hf : flat nm (redefE cid n e).1 = some zs) :
    (TStmt.definition (.ident x t) (redefE cid n e).1).Simultaneous nm := by
  obtain ⟨c, hcc⟩ := Option.isSome_iff_exists.1 tok.2
  obtain ⟨l, hl, _⟩ := flatIds_len t c (.basic x) hcc
  refine .inr (.inr ⟨l, zs, hl, hf, ?_⟩)
  have hb : BaseAt nm cid (.ident x t : TExpr (ZMod p)) (.basic x) l := ⟨hl, by simp only [flat, hl, Option.map_some], fun n => by simp only [redefE]⟩
  have hroot := flatIds_root tok.2 hl
  refine own_readBeforeWrite (x := x) hnm (fun q hq => by rw [hroot q hq]; rfl) (flatIds_nodup tok hl) ?_
  refine chooseMany_own hnm hx hn ?_ hb tok ht hm hf
  intro n zs hz
  refine flat_idsIn _ _ ?_ (redefE_wt new n hn).2 hz
  rintro s hs ⟨s', h1, h2⟩
  rw [hnm h2, h1] at hs
  rcases (redefE_sim (O := Oracle.any p Unit) hc new n hv).vars x hs with h3 | ⟨k, _, _, h3⟩
  · exact hxn h3
  · exact hx k h3

end Zok.Typed
