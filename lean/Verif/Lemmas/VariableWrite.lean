import Verif.Model.VariableWrite
import Verif.Lemmas.TypedPass
import Verif.Lemmas.FlattenTypesStmt

/-
The replacement of assignments with variable index.
-/

set_option linter.unusedSectionVars false

namespace Zok.Typed
open Abi
variable {p : ℕ} {Z : Type} [Fact p.Prime] {O : Oracle p Z} {env : TEnv p}

/-! ### Paths of accesses -/

/-- The accesses are in bounds in a value of the given type. -/
def AccOk (env : TEnv p) : List (Access (ZMod p)) → CType → Prop
  | [], _ => True
  | .select i :: as, .array n t => (∃ k, evalT env i = .ok (.uint .b32 k) ∧ k < n) ∧ AccOk env as t
  | .member m :: as, .struct ms => ∃ t, ms.lookup m = some t ∧ AccOk env as t
  | .element j :: as, .tuple ts => ∃ t, ts[j]? = some t ∧ AccOk env as t
  | _, _ => False

/-- The type of the accessed part. -/
def accTy : List (Access (ZMod p)) → CType → Option CType
  | [], t => some t
  | .select _ :: as, .array _ t => accTy as t
  | .member m :: as, .struct ms => (ms.lookup m).bind (accTy as)
  | .element j :: as, .tuple ts => (ts[j]?).bind (accTy as)
  | _, _ => none

/-- The value with the accessed part replaced. -/
inductive SetPath (env : TEnv p) : List (Access (ZMod p)) → AVal (ZMod p) → AVal (ZMod p) → AVal (ZMod p) → Prop
  | nil {v new} : SetPath env [] v new new
  | select {i as vs new k v u} : evalT env i = .ok (.uint .b32 k) → vs[k]? = some v → SetPath env as v new u →
      SetPath env (.select i :: as) (.array vs) new (.array (vs.set k u))
  | member {m as ms new v u} : ms.lookup m = some v → SetPath env as v new u →
      SetPath env (.member m :: as) (.struct ms) new (.struct (ms.map fun kv => if kv.1 = m then (kv.1, u) else kv))
  | element {j as vs new v u} : vs[j]? = some v → SetPath env as v new u →
      SetPath env (.element j :: as) (.tuple vs) new (.tuple (vs.set j u))

/-- The accessed part. -/
inductive GetPath (env : TEnv p) : List (Access (ZMod p)) → AVal (ZMod p) → AVal (ZMod p) → Prop
  | nil {v} : GetPath env [] v v
  | select {i as vs k v u} : evalT env i = .ok (.uint .b32 k) → vs[k]? = some v → GetPath env as v u → GetPath env (.select i :: as) (.array vs) u
  | member {m as ms v u} : ms.lookup m = some v → GetPath env as v u → GetPath env (.member m :: as) (.struct ms) u
  | element {j as vs v u} : vs[j]? = some v → GetPath env as v u → GetPath env (.element j :: as) (.tuple vs) u

theorem GetPath.snoc {as bs : List (Access (ZMod p))} {v w u : AVal (ZMod p)} (h : GetPath env as v w) (h' : GetPath env bs w u) : GetPath env (as ++ bs) v u := by
  induction h with
  | nil => exact h'
  | select h1 h2 _ ih => exact .select h1 h2 (ih h')
  | member h1 _ ih => exact .member h1 (ih h')
  | element h1 _ ih => exact .element h1 (ih h')

theorem SetPath.snoc {as bs : List (Access (ZMod p))} {v w new mid u : AVal (ZMod p)} (h : GetPath env as v w) (h1 : SetPath env bs w new mid)
    (h2 : SetPath env as v mid u) : SetPath env (as ++ bs) v new u := by
  induction h generalizing u with
  | nil => cases h2; exact h1
  | select g1 g2 _ ih =>
    cases h2 with
    | select k1 k2 k3 =>
      rw [g1] at k1; cases k1
      rw [g2] at k2; cases k2
      exact .select g1 g2 (ih h1 k3)
  | member g1 _ ih =>
    cases h2 with
    | member k1 k2 =>
      rw [g1] at k1; cases k1
      exact .member g1 (ih h1 k2)
  | element g1 _ ih =>
    cases h2 with
    | element k1 k2 =>
      rw [g1] at k1; cases k1
      exact .element g1 (ih h1 k2)

theorem hasTypeM_lookup_some {m : Str} {t : CType} : ∀ {ms : List (Str × CType)} {vs : List (Str × AVal (ZMod p))}, HasTypeM ms vs →
    ms.lookup m = some t → ∃ v, vs.lookup m = some v
  | [], [], _, h => by simp at h
  | [], _ :: _, h, _ => by simp [HasTypeM] at h
  | _ :: _, [], h, _ => by simp [HasTypeM] at h
  | (k, t0) :: ms, (k', v0) :: vs, h, h1 => by
    simp only [HasTypeM] at h
    obtain ⟨hk, h3, h4⟩ := h
    subst hk
    simp only [List.lookup] at h1 ⊢
    cases hm : m == k' with
    | true => exact ⟨v0, rfl⟩
    | false => simp only [hm] at h1; exact hasTypeM_lookup_some h4 h1

theorem hasTypeM_lookup_ty {m : Str} {v : AVal (ZMod p)} : ∀ {ms : List (Str × CType)} {vs : List (Str × AVal (ZMod p))}, HasTypeM ms vs →
    vs.lookup m = some v → ∃ t, ms.lookup m = some t
  | [], [], _, h => by simp at h
  | [], _ :: _, h, _ => by simp [HasTypeM] at h
  | _ :: _, [], h, _ => by simp [HasTypeM] at h
  | (k, t0) :: ms, (k', v0) :: vs, h, h1 => by
    simp only [HasTypeM] at h
    obtain ⟨hk, h3, h4⟩ := h
    subst hk
    simp only [List.lookup] at h1 ⊢
    cases hm : m == k' with
    | true => exact ⟨t0, rfl⟩
    | false => simp only [hm] at h1; exact hasTypeM_lookup_ty h4 h1

theorem mapM_forall₂ {α β : Type _} {f : α → Option β} : ∀ {l : List α} {l' : List β}, l.mapM f = some l' → List.Forall₂ (fun a b => f a = some b) l l'
  | [], l', h => by simp at h; subst h; exact .nil
  | a :: l, l', h => by
    rw [List.mapM_cons] at h
    obtain ⟨b, h1, h⟩ := Option.bind_eq_some_iff.1 h
    obtain ⟨bs, h2, h⟩ := Option.bind_eq_some_iff.1 h
    cases h
    exact .cons h1 (mapM_forall₂ h2)

/-- The accessed part of an assignee is at the end of its path. -/
theorem getA_path : ∀ {a : TAssignee (ZMod p)} {w : AVal (ZMod p)}, getA env a = .ok w →
    ∃ v, evalT env (.ident (linear a).1.1 (linear a).1.2) = .ok v ∧ GetPath env (linear a).2 v w := by
  intro a
  induction a with
  | ident x t => intro w h; exact ⟨w, h, .nil⟩
  | select a i ih =>
    intro w h
    simp only [getA] at h
    obtain ⟨vs, hvs, h⟩ := Prop'.exc_bind_ok h
    obtain ⟨k, hk, h⟩ := Prop'.exc_bind_ok h
    obtain ⟨u, hu, hvs⟩ := bind_ok hvs
    obtain ⟨u', hu', hk⟩ := bind_ok hk
    obtain ⟨v, h1, h2⟩ := ih hu
    rw [asArray_ok hvs] at h2
    rw [asUint_ok hk] at hu'
    exact ⟨v, h1, h2.snoc (.select hu' (selectVal_ok h) .nil)⟩
  | member a m ih =>
    intro w h
    simp only [getA] at h
    obtain ⟨u, hu, h⟩ := Prop'.exc_bind_ok h
    obtain ⟨v, h1, h2⟩ := ih hu
    cases u with
    | struct ms =>
      simp only at h
      split at h
      · rename_i v' hv'
        cases h
        exact ⟨v, h1, h2.snoc (.member hv' .nil)⟩
      · cases h
    | _ => simp at h
  | element a m ih =>
    intro w h
    simp only [getA] at h
    obtain ⟨u, hu, h⟩ := Prop'.exc_bind_ok h
    obtain ⟨v, h1, h2⟩ := ih hu
    cases u with
    | tuple ms =>
      simp only at h
      split at h
      · rename_i v' hv'
        cases h
        exact ⟨v, h1, h2.snoc (.element hv' .nil)⟩
      · cases h
    | _ => simp at h

theorem getA_hasType : ∀ {a : TAssignee (ZMod p)} {w : AVal (ZMod p)} {t : CType}, a.ty = some t → getA env a = .ok w → HasType t w := by
  intro a
  induction a with
  | ident x t =>
    intro w t' ht h
    simp only [TAssignee.ty] at ht
    cases ht
    simp only [getA, evalT] at h
    split at h
    · split at h
      · rename_i h1; cases h; exact h1
      · cases h
    · cases h
  | select a i ih =>
    intro w t' ht h
    simp only [TAssignee.ty] at ht
    split at ht
    · rename_i n t h0
      cases ht
      simp only [getA] at h
      obtain ⟨vs, hvs, h⟩ := Prop'.exc_bind_ok h
      obtain ⟨k, hk, h⟩ := Prop'.exc_bind_ok h
      obtain ⟨u, hu, hvs⟩ := bind_ok hvs
      have := ih h0 hu
      rw [asArray_ok hvs] at this
      simp only [HasType] at this
      exact this.2 _ (List.mem_of_getElem? (selectVal_ok h))
    · cases ht
  | member a m ih =>
    intro w t' ht h
    simp only [TAssignee.ty] at ht
    split at ht
    · rename_i ms h0
      simp only [getA] at h
      obtain ⟨u, hu, h⟩ := Prop'.exc_bind_ok h
      have := ih h0 hu
      cases u with
      | struct fs =>
        simp only at h
        split at h
        · rename_i v' hv'
          cases h
          simp only [HasType] at this
          exact hasTypeM_lookup ms fs m t' _ this ht hv'
        · cases h
      | _ => simp at h
    · cases ht
  | element a m ih =>
    intro w t' ht h
    simp only [TAssignee.ty] at ht
    split at ht
    · rename_i ms h0
      simp only [getA] at h
      obtain ⟨u, hu, h⟩ := Prop'.exc_bind_ok h
      have := ih h0 hu
      cases u with
      | tuple fs =>
        simp only at h
        split at h
        · rename_i v' hv'
          cases h
          simp only [HasType] at this
          exact hasTypeL_get ms fs m t' _ this ht hv'
        · cases h
      | _ => simp at h
    · cases ht

/-- Assigning to an assignee replaces the part at the end of its path. -/
theorem setA_path : ∀ {a : TAssignee (ZMod p)} {w new u : AVal (ZMod p)}, getA env a = .ok w → setA env a new = .ok u →
    ∃ v, evalT env (.ident (linear a).1.1 (linear a).1.2) = .ok v ∧ SetPath env (linear a).2 v new u := by
  intro a
  induction a with
  | ident x t =>
    intro w new u h h'
    simp only [setA] at h'
    cases h'
    exact ⟨w, h, .nil⟩
  | select a i ih =>
    intro w new u h h'
    simp only [getA] at h
    obtain ⟨vs, hvs, h⟩ := Prop'.exc_bind_ok h
    obtain ⟨k, hk, h⟩ := Prop'.exc_bind_ok h
    obtain ⟨x, hx, hvs'⟩ := bind_ok hvs
    obtain ⟨y, hy, hk'⟩ := bind_ok hk
    simp only [setA] at h'
    obtain ⟨vs2, hvs2, h'⟩ := Prop'.exc_bind_ok h'
    obtain ⟨k2, hk2, h'⟩ := Prop'.exc_bind_ok h'
    rw [hvs] at hvs2; cases hvs2
    rw [hk] at hk2; cases hk2
    split at h'
    · obtain ⟨v, h1, h2⟩ := ih hx h'
      obtain ⟨v', h3, h4⟩ := getA_path hx
      rw [h1] at h3; cases h3
      rw [asArray_ok hvs'] at h4
      rw [asUint_ok hk'] at hy
      exact ⟨v, h1, SetPath.snoc h4 (.select hy (selectVal_ok h) .nil) h2⟩
    · cases h'
  | member a m ih =>
    intro w new u h h'
    simp only [getA] at h
    obtain ⟨x, hx, h⟩ := Prop'.exc_bind_ok h
    simp only [setA, hx, bind, Except.bind] at h'
    cases x with
    | struct ms =>
      simp only at h h'
      split at h
      · rename_i v' hv'
        obtain ⟨v, h1, h2⟩ := ih hx h'
        obtain ⟨v', h3, h4⟩ := getA_path hx
        rw [h1] at h3; cases h3
        exact ⟨v, h1, SetPath.snoc h4 (.member hv' .nil) h2⟩
      · cases h
    | _ => simp at h
  | element a m ih =>
    intro w new u h h'
    simp only [getA] at h
    obtain ⟨x, hx, h⟩ := Prop'.exc_bind_ok h
    simp only [setA, hx, bind, Except.bind] at h'
    cases x with
    | tuple ms =>
      simp only at h h'
      split at h
      · rename_i v' hv'
        obtain ⟨v, h1, h2⟩ := ih hx h'
        obtain ⟨v', h3, h4⟩ := getA_path hx
        rw [h1] at h3; cases h3
        exact ⟨v, h1, SetPath.snoc h4 (.element hv' .nil) h2⟩
      · cases h
    | _ => simp at h

/-- The part of a variable that can be assigned can be read. -/
theorem setA_getA {a : TAssignee (ZMod p)} {new u : AVal (ZMod p)} (hw : a.Wt) (hi : ∀ x t, a ≠ .ident x t) (h : setA env a new = .ok u) :
    ∃ w, getA env a = .ok w := by
  cases a with
  | ident x t => exact absurd rfl (hi x t)
  | select a i =>
    simp only [setA] at h
    obtain ⟨vs, hvs, h⟩ := Prop'.exc_bind_ok h
    obtain ⟨k, hk, h⟩ := Prop'.exc_bind_ok h
    split at h
    · rename_i hlt
      refine ⟨vs[k], ?_⟩
      simp only [getA, hvs, hk]
      change selectVal vs k = _
      simp only [selectVal, List.getElem?_eq_getElem hlt]
    · cases h
  | member a m =>
    simp only [setA] at h
    obtain ⟨x, hx, h⟩ := Prop'.exc_bind_ok h
    obtain ⟨⟨ms, t, h1, h2⟩, _⟩ := hw
    have ht := getA_hasType h1 hx
    cases x with
    | struct fs =>
      obtain ⟨v, hv⟩ := hasTypeM_lookup_some (by simpa only [HasType] using ht) h2
      exact ⟨v, by simp only [getA, hx, bind, Except.bind, hv]⟩
    | _ => simp at h
  | element a m =>
    simp only [setA] at h
    obtain ⟨x, hx, h⟩ := Prop'.exc_bind_ok h
    obtain ⟨⟨ms, t, h1, h2⟩, _⟩ := hw
    have ht := getA_hasType h1 hx
    cases x with
    | tuple fs =>
      simp only [HasType] at ht
      have hl := hasTypeL_length ht
      obtain ⟨hm, _⟩ := List.getElem?_eq_some_iff.1 h2
      have hm' : m < fs.length := by omega
      exact ⟨fs[m], by simp only [getA, hx, bind, Except.bind, List.getElem?_eq_getElem hm']⟩
    | _ => simp at h

/-- A path that can be replaced is in bounds. -/
theorem SetPath.accOk {as : List (Access (ZMod p))} {v new u : AVal (ZMod p)} (h : SetPath env as v new u) : ∀ {t : CType}, HasType t v → AccOk env as t := by
  induction h with
  | nil => intro t _; simp [AccOk]
  | @select i as vs new k v u h1 h2 _ ih =>
    intro t ht
    cases t with
    | array n t =>
      simp only [HasType] at ht
      simp only [AccOk]
      refine ⟨⟨k, h1, ?_⟩, ih (ht.2 v (List.mem_of_getElem? h2))⟩
      obtain ⟨hk, _⟩ := List.getElem?_eq_some_iff.1 h2
      omega
    | _ => simp [HasType] at ht
  | @member m as ms new v u h1 _ ih =>
    intro t ht
    cases t with
    | struct ts =>
      simp only [HasType] at ht
      simp only [AccOk]
      obtain ⟨t, h2⟩ := hasTypeM_lookup_ty ht h1
      exact ⟨t, h2, ih (hasTypeM_lookup ts ms m t v ht h2 h1)⟩
    | _ => simp [HasType] at ht
  | @element j as vs new v u h1 _ ih =>
    intro t ht
    cases t with
    | tuple ts =>
      simp only [HasType] at ht
      simp only [AccOk]
      have hl := hasTypeL_length ht
      obtain ⟨hm, _⟩ := List.getElem?_eq_some_iff.1 h1
      have hm' : j < ts.length := by omega
      have h2 := List.getElem?_eq_getElem hm'
      exact ⟨_, h2, ih (hasTypeL_get ts vs j _ v ht h2 h1)⟩
    | _ => simp [HasType] at ht

/-- In bounds, every value of the type can be replaced. -/
theorem AccOk.set : ∀ {as : List (Access (ZMod p))} {t : CType} {v : AVal (ZMod p)} (new : AVal (ZMod p)), AccOk env as t → HasType t v →
    ∃ u, SetPath env as v new u
  | [], _, _, new, _, _ => ⟨new, .nil⟩
  | .select i :: as, t, v, new, h, ht => by
    cases t with
    | array n t =>
      obtain ⟨⟨k, h1, h2⟩, h3⟩ := h
      cases v with
      | array vs =>
        simp only [HasType] at ht
        have hk : k < vs.length := by omega
        obtain ⟨u, hu⟩ := AccOk.set new h3 (ht.2 _ (List.getElem_mem hk))
        exact ⟨_, .select h1 (List.getElem?_eq_getElem hk) hu⟩
      | _ => simp [HasType] at ht
    | _ => simp [AccOk] at h
  | .member m :: as, t, v, new, h, ht => by
    cases t with
    | struct ts =>
      obtain ⟨t, h1, h3⟩ := h
      cases v with
      | struct vs =>
        simp only [HasType] at ht
        obtain ⟨v, hv⟩ := hasTypeM_lookup_some ht h1
        obtain ⟨u, hu⟩ := AccOk.set new h3 (hasTypeM_lookup ts vs m t v ht h1 hv)
        exact ⟨_, .member hv hu⟩
      | _ => simp [HasType] at ht
    | _ => simp [AccOk] at h
  | .element m :: as, t, v, new, h, ht => by
    cases t with
    | tuple ts =>
      obtain ⟨t, h1, h3⟩ := h
      cases v with
      | tuple vs =>
        simp only [HasType] at ht
        have hl := hasTypeL_length ht
        obtain ⟨hm, _⟩ := List.getElem?_eq_some_iff.1 h1
        have hm' : m < vs.length := by omega
        have hv := List.getElem?_eq_getElem hm'
        obtain ⟨u, hu⟩ := AccOk.set new h3 (hasTypeL_get ts vs m t _ ht h1 hv)
        exact ⟨_, .element hv hu⟩
      | _ => simp [HasType] at ht
    | _ => simp [AccOk] at h

/-! ### The replacing expression -/

theorem evalL_forall₂ {es : List (TExpr (ZMod p))} {vs : List (AVal (ZMod p))} (h : List.Forall₂ (fun e v => evalT env e = .ok v) es vs) :
    evalL env es = .ok vs := by
  induction h with
  | nil => rfl
  | cons h1 _ ih => simp only [evalL, h1, ih, bind, Except.bind]

theorem evalS_forall₂ {es : List (TSpread (ZMod p))} {vs : List (AVal (ZMod p))}
    (h : List.Forall₂ (fun e v => ∃ x, e = .expr x ∧ evalT env x = .ok v) es vs) : evalS env es = .ok vs := by
  induction h with
  | nil => rfl
  | cons h1 _ ih =>
    obtain ⟨x, rfl, h1⟩ := h1
    simp only [evalS, h1, ih, bind, Except.bind]

theorem forall₂_trans {α β γ : Type _} {P : α → β → Prop} {Q : α → γ → Prop} {R : β → γ → Prop} {a : List α} {b : List β} {c : List γ} (h1 : List.Forall₂ P a b)
    (h2 : List.Forall₂ Q a c) (h : ∀ x y z, x ∈ a → P x y → Q x z → R y z) : List.Forall₂ R b c := by
  induction h1 generalizing c with
  | nil => cases h2; exact .nil
  | cons g1 g2 ih =>
    cases h2 with
    | cons k1 k2 => exact .cons (h _ _ _ (by simp) g1 k1) (ih k2 fun x y z hx => h x y z (by simp [hx]))

theorem forall₂_range {α : Type _} {P : ℕ → α → Prop} : ∀ {l : List α} {k : ℕ}, (∀ i x, l[i]? = some x → P (k + i) x) →
    List.Forall₂ P (List.range' k l.length) l
  | [], _, _ => .nil
  | x :: l, k, h => by
    rw [List.length_cons, List.range'_succ]
    refine .cons (by simpa using h 0 x rfl) (forall₂_range fun i y hy => ?_)
    have := h (i + 1) y (by simpa using hy)
    rwa [show k + (i + 1) = k + 1 + i by omega] at this

theorem lookup_notMem {α β : Type} [BEq α] [LawfulBEq α] {k : α} {l : List (α × β)} {v : β} (hn : (l.map Prod.fst).Nodup) (h : (k, v) ∈ l) : l.lookup k = some v := by
  induction l with
  | nil => simp at h
  | cons x l ih =>
    simp only [List.map_cons, List.nodup_cons] at hn
    rcases List.mem_cons.1 h with rfl | h
    · simp [List.lookup]
    · have : (k == x.1) = false := by
        rw [beq_eq_false_iff_ne]
        rintro rfl
        exact hn.1 (List.mem_map.2 ⟨_, h, rfl⟩)
      simp only [List.lookup, this]
      exact ih hn.2 h

theorem hasTypeM_forall₂ : ∀ {ms : List (Str × CType)} {vs : List (Str × AVal (ZMod p))}, HasTypeM ms vs →
    List.Forall₂ (fun kt kv => kv.1 = kt.1 ∧ HasType kt.2 kv.2) ms vs
  | [], [], _ => .nil
  | [], _ :: _, h => by simp [HasTypeM] at h
  | _ :: _, [], h => by simp [HasTypeM] at h
  | (k, t0) :: ms, (k', v0) :: vs, h => by
    simp only [HasTypeM] at h
    exact .cons ⟨h.1, h.2.1⟩ (hasTypeM_forall₂ h.2.2)

theorem forall₂_keys {ms : List (Str × CType)} {vs : List (Str × AVal (ZMod p))} (h : List.Forall₂ (fun kt kv => kv.1 = kt.1 ∧ HasType kt.2 kv.2) ms vs) :
    vs.map Prod.fst = ms.map Prod.fst := by
  induction h with
  | nil => rfl
  | cons h1 _ ih => simp [h1.1, ih]

theorem forall₂_mem {α β : Type _} {R : α → β → Prop} {a : List α} {b : List β} (h : List.Forall₂ R a b) : List.Forall₂ (fun x y => R x y ∧ x ∈ a ∧ y ∈ b) a b := by
  induction h with
  | nil => exact .nil
  | cons h1 _ ih => exact .cons ⟨h1, by simp, by simp⟩ (ih.imp fun x y h => ⟨h.1, by simp [h.2.1], by simp [h.2.2]⟩)

theorem zip_map {α β : Type _} (l : List (α × β)) (f : α × β → β) : (l.map Prod.fst).zip (l.map f) = l.map fun x => (x.1, f x) := by
  induction l with
  | nil => rfl
  | cons x l ih => simp [ih]

theorem forall₂_zipIdx {ts : List CType} {vs : List (AVal (ZMod p))} : ∀ {k : ℕ}, HasTypeL ts vs →
    List.Forall₂ (fun (ti : CType × ℕ) (v : AVal (ZMod p)) => HasType ti.1 v ∧ k ≤ ti.2 ∧ ts[ti.2 - k]? = some ti.1 ∧ vs[ti.2 - k]? = some v) (ts.zipIdx k) vs := by
  induction ts generalizing vs with
  | nil =>
    intro k h
    cases vs with
    | nil => exact .nil
    | cons v vs => simp [HasTypeL] at h
  | cons t ts ih =>
    intro k h
    cases vs with
    | nil => simp [HasTypeL] at h
    | cons v vs =>
      simp only [HasTypeL] at h
      rw [List.zipIdx_cons]
      refine .cons ⟨h.1, le_refl k, by simp, by simp⟩ ((ih (k := k + 1) h.2).imp ?_)
      rintro ⟨t', i⟩ v' ⟨h1, h2, h3, h4⟩
      simp only at h2 h3 h4 ⊢
      refine ⟨h1, by omega, ?_, ?_⟩
      · rw [show i - k = (i - (k + 1)) + 1 by omega, List.getElem?_cons_succ]; exact h3
      · rw [show i - k = (i - (k + 1)) + 1 by omega, List.getElem?_cons_succ]; exact h4

theorem eval_cond {t : CType} {c a b : TExpr (ZMod p)} {k : Bool} {x y : AVal (ZMod p)} (hc : evalT env c = .ok (.bool k)) (ha : evalT env a = .ok x)
    (hb : evalT env b = .ok y) : evalT env (.cond t c a b) = .ok (if k then x else y) := by
  simp only [evalT, hc, ha, hb, bind, Except.bind, asBool]

open Classical in
theorem eval_eq {a b : TExpr (ZMod p)} {x y : AVal (ZMod p)} (ha : evalT env a = .ok x) (hb : evalT env b = .ok y) :
    evalT env (.eq a b) = .ok (.bool (decide (x = y))) := by
  simp only [evalT, ha, hb, bind, Except.bind]

/-- The value of the expression `choose_many` returns. -/
theorem chooseMany_eval : ∀ {as : List (Access (ZMod p))} {base new e : TExpr (ZMod p)} {v nv u : AVal (ZMod p)}, chooseMany as base new = some e →
    evalT env base = .ok v → HasType base.ty v → base.ty.Distinct → evalT env new = .ok nv → SetPath env as v nv u → evalT env e = .ok u
  | [], base, new, e, v, nv, u, hc, _, _, _, hn, hs => by
    simp only [chooseMany] at hc
    cases hc
    cases hs
    exact hn
  | .select head :: as, base, new, e, v, nv, u, hc, hb, ht, hd, hn, hs => by
    have hacc := hs.accOk ht
    cases hs with
    | @select _ _ vs _ k v1 u1 h1 h2 h3 =>
      simp only [chooseMany] at hc
      split at hc
      · rename_i size t hty
        obtain ⟨es, h4, rfl⟩ := Option.map_eq_some_iff.1 hc
        replace h4 := mapM_forall₂ h4
        rw [hty] at ht hd hacc
        simp only [HasType] at ht
        simp only [AccOk] at hacc
        simp only [CType.Distinct] at hd
        have hlen : (vs.set k u1).length = size := by simp [ht.1]
        have h5 : List.Forall₂ (fun i x => (vs.set k u1)[i]? = some x) (List.range size) (vs.set k u1) := by
          have := forall₂_range (P := fun i x => (vs.set k u1)[i]? = some x) (l := vs.set k u1) (k := 0) (fun i x hx => by simpa using hx)
          rwa [hlen, ← List.range_eq_range'] at this
        have h6 : evalS env es = .ok (vs.set k u1) := by
          refine evalS_forall₂ (forall₂_trans h4 h5 ?_)
          intro i y z hi hy hz
          have hi : i < size := by simpa using hi
          have hi' : i < vs.length := by omega
          obtain ⟨e', h7, rfl⟩ := Option.map_eq_some_iff.1 hy
          refine ⟨_, rfl, ?_⟩
          have hsel : evalT env (.select t base (.uval .b32 i)) = .ok vs[i] := by
            simp only [evalT, hb, Except.bind, asArray, asUint, if_true, bind, selectVal]
            rw [List.getElem?_eq_getElem hi']
          have hti : HasType t vs[i] := ht.2 _ (List.getElem_mem hi')
          obtain ⟨u2, hu2⟩ := hacc.2.set nv hti
          have h8 := chooseMany_eval h7 hsel (by simpa [TExpr.ty] using hti) (by simpa [TExpr.ty] using hd) hn hu2
          have hcond := eval_cond (t := t) (eval_eq (a := .uval .b32 i) (x := .uint .b32 i) (by simp only [evalT]) h1) h8 hsel
          rw [hcond]
          by_cases hik : i = k
          · subst hik
            rw [List.getElem?_eq_getElem hi'] at h2
            cases h2
            have := chooseMany_eval h7 hsel (by simpa [TExpr.ty] using hti) (by simpa [TExpr.ty] using hd) hn h3
            rw [h8] at this
            cases this
            rw [List.getElem?_set_self hi'] at hz
            cases hz
            simp
          · rw [List.getElem?_set_ne (Ne.symm hik), List.getElem?_eq_getElem hi'] at hz
            cases hz
            simp [hik]
        simp only [evalT, h6, bind, Except.bind]
      · cases hc
  | .member head :: as, base, new, e, v, nv, u, hc, hb, ht, hd, hn, hs => by
    cases hs with
    | @member _ _ fs _ v1 u1 h1 h2 =>
      simp only [chooseMany] at hc
      split at hc
      · rename_i ms hty
        obtain ⟨es, h4, rfl⟩ := Option.map_eq_some_iff.1 hc
        replace h4 := mapM_forall₂ h4
        rw [hty] at ht hd
        simp only [HasType] at ht
        simp only [CType.Distinct] at hd
        have hf := forall₂_mem (hasTypeM_forall₂ ht)
        have hk := forall₂_keys (hasTypeM_forall₂ ht)
        have h6 : evalL env es = .ok (fs.map fun kv => if kv.1 = head then u1 else kv.2) := by
          refine evalL_forall₂ ?_
          have hf' := List.forall₂_map_right_iff (f := fun kv : Str × AVal (ZMod p) => if kv.1 = head then u1 else kv.2)
            (R := fun (kt : Str × CType) z => ∃ kv, z = (if kv.1 = head then u1 else kv.2) ∧ (kv.1 = kt.1 ∧ HasType kt.2 kv.2) ∧ kt ∈ ms ∧ kv ∈ fs) |>.2
            (hf.imp fun kt kv h => ⟨kv, rfl, h⟩)
          refine forall₂_trans h4 hf' ?_
          rintro ⟨k, t⟩ y z hx hy ⟨⟨k', v'⟩, rfl, ⟨g1, g2⟩, g3, g4⟩
          simp only at g1 g2 hy ⊢
          subst g1
          have hl : fs.lookup k' = some v' := lookup_notMem (by rw [hk]; exact hd.1) g4
          have hlt : ms.lookup k' = some t := lookup_notMem hd.1 g3
          by_cases hh : k' = head
          · subst hh
            simp only [if_true] at hy ⊢
            rw [h1] at hl
            cases hl
            have hm : evalT env (.member t base k') = .ok v1 := by
              simp only [evalT, hb, bind, Except.bind, h1]
            exact chooseMany_eval hy hm (by simpa [TExpr.ty] using g2) (by simpa [TExpr.ty] using distinctM_lookup hd.2 hlt) hn h2
          · rw [if_neg hh] at hy ⊢
            cases hy
            simp only [evalT, hb, bind, Except.bind, hl]
        simp only [evalT, h6, bind, Except.bind]
        rw [← hk, zip_map]
        congr 3
        funext kv
        split <;> rfl
      · cases hc
  | .element head :: as, base, new, e, v, nv, u, hc, hb, ht, hd, hn, hs => by
    cases hs with
    | @element _ _ vs _ v1 u1 h1 h2 =>
      simp only [chooseMany] at hc
      split at hc
      · rename_i ts hty
        obtain ⟨es, h4, rfl⟩ := Option.map_eq_some_iff.1 hc
        replace h4 := mapM_forall₂ h4
        rw [hty] at ht hd
        simp only [HasType] at ht
        simp only [CType.Distinct] at hd
        have hf := forall₂_zipIdx (k := 0) ht
        have h6 : evalL env es = .ok (vs.set head u1) := by
          refine evalL_forall₂ ?_
          have hlen : es.length = vs.length := by rw [← h4.length_eq, hf.length_eq]
          rw [List.forall₂_iff_get] at h4 hf ⊢
          refine ⟨by simp [hlen], fun i hi hi' => ?_⟩
          have hi1 : i < (ts.zipIdx).length := by omega
          have hi2 : i < vs.length := by omega
          have g1 := h4.2 i hi1 hi
          obtain ⟨g2, _, g3, g4⟩ := hf.2 i hi1 hi2
          simp only [List.get_eq_getElem, List.getElem_zipIdx, Nat.zero_add, Nat.sub_zero] at g1 g2 g3 g4 ⊢
          by_cases hh : i = head
          · subst hh
            rw [if_pos rfl] at g1
            rw [List.getElem_set_self]
            rw [List.getElem?_eq_getElem hi2] at h1
            cases h1
            have hm : evalT env (.element (ts[i]'(by simpa using hi1)) base i) = .ok vs[i] := by
              simp only [evalT, hb, bind, Except.bind, List.getElem?_eq_getElem hi2]
            exact chooseMany_eval g1 hm (by simpa [TExpr.ty] using g2) (by simpa [TExpr.ty] using distinctL_get hd g3) hn h2
          · rw [if_neg hh] at g1
            rw [List.getElem_set_ne (Ne.symm hh)]
            injection g1 with g1
            rw [← g1]
            simp only [evalT, hb, bind, Except.bind, List.getElem?_eq_getElem hi2]
        simp only [evalT, h6, bind, Except.bind]
      · cases hc

end Zok.Typed
