import Verif.Lemmas.FlattenTypesAssign
import Verif.Lemmas.Bits
import Verif.Lemmas.CmpStmt2
import Verif.Lemmas.DceCongr
import Verif.Lemmas.Deterministic

/-! Statements and functions: the flattened function simulates the typed one. -/

namespace Zok.Typed
open Abi
variable {p : ℕ} [Fact p.Prime] {Z : Type} {O : Oracle p Z}

/-! ### Expressions only read their variables -/

mutual
theorem evalT_congr {env env' : TEnv p} : ∀ (e : TExpr (ZMod p)), (∀ x ∈ e.vars, env x = env' x) → evalT env e = evalT env' e
  | .fval _, _ => by simp only [evalT]
  | .bval _, _ => by simp only [evalT]
  | .uval _ _, _ => by simp only [evalT]
  | .removed _, _ => by simp only [evalT]
  | .ident x t, h => by simp only [evalT, h x (by simp [TExpr.vars])]
  | .fbin op l r, h => by
    simp only [TExpr.vars, List.mem_append] at h
    simp only [evalT, evalT_congr l (fun x hx => h x (.inl hx)), evalT_congr r (fun x hx => h x (.inr hx))]
  | .fubin op l r, h => by
    simp only [TExpr.vars, List.mem_append] at h
    simp only [evalT, evalT_congr l (fun x hx => h x (.inl hx)), evalT_congr r (fun x hx => h x (.inr hx))]
  | .ubin w op l r, h => by
    simp only [TExpr.vars, List.mem_append] at h
    simp only [evalT, evalT_congr l (fun x hx => h x (.inl hx)), evalT_congr r (fun x hx => h x (.inr hx))]
  | .bbin op l r, h => by
    simp only [TExpr.vars, List.mem_append] at h
    simp only [evalT, evalT_congr l (fun x hx => h x (.inl hx)), evalT_congr r (fun x hx => h x (.inr hx))]
  | .fcmp op l r, h => by
    simp only [TExpr.vars, List.mem_append] at h
    simp only [evalT, evalT_congr l (fun x hx => h x (.inl hx)), evalT_congr r (fun x hx => h x (.inr hx))]
  | .ucmp op l r, h => by
    simp only [TExpr.vars, List.mem_append] at h
    simp only [evalT, evalT_congr l (fun x hx => h x (.inl hx)), evalT_congr r (fun x hx => h x (.inr hx))]
  | .eq l r, h => by
    simp only [TExpr.vars, List.mem_append] at h
    simp only [evalT, evalT_congr l (fun x hx => h x (.inl hx)), evalT_congr r (fun x hx => h x (.inr hx))]
  | .fneg e, h => by simp only [TExpr.vars] at h; simp only [evalT, evalT_congr e h]
  | .fpos e, h => by simp only [TExpr.vars] at h; simp only [evalT, evalT_congr e h]
  | .unot w e, h => by simp only [TExpr.vars] at h; simp only [evalT, evalT_congr e h]
  | .uneg w e, h => by simp only [TExpr.vars] at h; simp only [evalT, evalT_congr e h]
  | .upos w e, h => by simp only [TExpr.vars] at h; simp only [evalT, evalT_congr e h]
  | .bnot e, h => by simp only [TExpr.vars] at h; simp only [evalT, evalT_congr e h]
  | .cond t c a b, h => by
    simp only [TExpr.vars, List.mem_append] at h
    simp only [evalT, evalT_congr c (fun x hx => h x (.inl (.inl hx))), evalT_congr a (fun x hx => h x (.inl (.inr hx))),
      evalT_congr b (fun x hx => h x (.inr hx))]
  | .select t a i, h => by
    simp only [TExpr.vars, List.mem_append] at h
    simp only [evalT, evalT_congr a (fun x hx => h x (.inl hx)), evalT_congr i (fun x hx => h x (.inr hx))]
  | .member t e m, h => by simp only [TExpr.vars] at h; simp only [evalT, evalT_congr e h]
  | .element t e m, h => by simp only [TExpr.vars] at h; simp only [evalT, evalT_congr e h]
  | .array t n es, h => by simp only [TExpr.vars] at h; simp only [evalT, evalS_congr es h]
  | .slice t n a lo hi, h => by
    simp only [TExpr.vars, List.mem_append] at h
    simp only [evalT, evalT_congr a (fun x hx => h x (.inl (.inl hx))), evalT_congr lo (fun x hx => h x (.inl (.inr hx))),
      evalT_congr hi (fun x hx => h x (.inr hx))]
  | .repeat_ t n e c, h => by
    simp only [TExpr.vars, List.mem_append] at h
    simp only [evalT, evalT_congr e (fun x hx => h x (.inl hx)), evalT_congr c (fun x hx => h x (.inr hx))]
  | .struct ms es, h => by simp only [TExpr.vars] at h; simp only [evalT, evalL_congr es h]
  | .tuple ts es, h => by simp only [TExpr.vars] at h; simp only [evalT, evalL_congr es h]
theorem evalL_congr {env env' : TEnv p} : ∀ (es : List (TExpr (ZMod p))), (∀ x ∈ varsL es, env x = env' x) → evalL env es = evalL env' es
  | [], _ => by simp only [evalL]
  | e :: es, h => by
    simp only [varsL, List.mem_append] at h
    simp only [evalL, evalT_congr e (fun x hx => h x (.inl hx)), evalL_congr es (fun x hx => h x (.inr hx))]
theorem evalS_congr {env env' : TEnv p} : ∀ (es : List (TSpread (ZMod p))), (∀ x ∈ varsS es, env x = env' x) → evalS env es = evalS env' es
  | [], _ => by simp only [evalS]
  | .expr e :: es, h => by
    simp only [varsS, List.mem_append] at h
    simp only [evalS, evalT_congr e (fun x hx => h x (.inl hx)), evalS_congr es (fun x hx => h x (.inr hx))]
  | .spread e :: es, h => by
    simp only [varsS, List.mem_append] at h
    simp only [evalS, evalT_congr e (fun x hx => h x (.inl hx)), evalS_congr es (fun x hx => h x (.inr hx))]
end

/-! ### Sequences of definitions -/

/-- Definitions whose right sides keep their values while the variables are assigned. -/
theorem exec_defs {Good : ZEnv p → Prop} : ∀ (xs : List ZId) (es : List (ZExpr (ZMod p))) (vs : List (ZVal p)) (τ : ZState p), xs.length = es.length →
    (∀ z, Good z → Ev z es vs) → (∀ z x v, x ∈ xs → Good z → Good fun y => if y = x then some v else z y) → Good τ.env →
    ∀ rest r, ExecL O τ ((List.zipWith (fun x e => ZStmt.definition x e) xs es) ++ rest) r ↔ ExecL O (τ.setAll xs vs) rest r
  | [], [], vs, τ, _, he, _, hg, rest, r => by
    have := he _ hg
    cases this
    exact Iff.rfl
  | [], _ :: _, _, _, hl, _, _, _, _, _ => by simp at hl
  | _ :: _, [], _, _, hl, _, _, _, _, _ => by simp at hl
  | x :: xs, e :: es, vs, τ, hl, he, hs, hg, rest, r => by
    have h1 := he _ hg
    cases h1 with
    | @cons _ v _ vs h1 h2 =>
    simp only [List.zipWith_cons_cons, List.cons_append, ZState.setAll]
    rw [← exec_defs (Good := Good) xs es vs (τ.set x v) (by simpa using hl) (fun z hz => by
        have := he z hz
        cases this with
        | cons _ h => exact h) (fun z y w hy hz => hs z y w (List.mem_cons_of_mem _ hy) hz) (hs _ _ _ List.mem_cons_self hg) rest r]
    constructor
    · intro h
      cases h with
      | fault h => cases h with
        | definitionFault h => rw [h1] at h; cases h
      | cons ha hb => cases ha with
        | definition h => rw [h1] at h; cases h; exact hb
    · intro h
      exact .cons (.definition h1) h

/-! ### Values of a type from their components -/

/-- Integers below the bound of their width. -/
def InRange : ZVal p → Prop
  | .uint w n => n < 2 ^ w
  | _ => True

theorem split_map {α β : Type _} {f : α → β} {l : List α} {a b : List β} (h : l.map f = a ++ b) : ∃ x y, l = x ++ y ∧ x.map f = a ∧ y.map f = b :=
  List.map_eq_append_iff.1 h

mutual
theorem prims_surj : ∀ (t : CType) (xs : List (ZVal p)), (primCount t).isSome → xs.map zty = primTys t → (∀ x ∈ xs, InRange x) →
    ∃ v, HasType t v ∧ prims v = xs
  | .int, xs, h, _, _ => by simp [primCount] at h
  | .field, xs, _, h, _ => by
    simp only [primTys, List.map_eq_singleton_iff] at h
    obtain ⟨x, rfl, hx⟩ := h
    cases x <;> simp [zty] at hx
    rename_i y _
    exact ⟨.field y, by simp [HasType], by simp [prims]⟩
  | .bool, xs, _, h, _ => by
    simp only [primTys, List.map_eq_singleton_iff] at h
    obtain ⟨x, rfl, hx⟩ := h
    cases x <;> simp [zty] at hx
    rename_i y _
    exact ⟨.bool y, by simp [HasType], by simp [prims]⟩
  | .uint w, xs, _, h, hr => by
    simp only [primTys, List.map_eq_singleton_iff] at h
    obtain ⟨x, rfl, hx⟩ := h
    cases x <;> simp [zty] at hx
    rename_i n
    have := hr _ List.mem_cons_self
    simp only [InRange] at this
    subst hx
    exact ⟨.uint w n, by simp [HasType, this], by simp [prims]⟩
  | .array n t, xs, hc, h, hr => by
    simp only [primTys] at h
    have hc' : n = 0 ∨ (primCount t).isSome := by
      simp only [primCount] at hc
      split at hc
      · simp at hc
      · rename_i hh; right; simp [hh]
    have key : ∀ xs : List (ZVal p), xs.map zty = (List.replicate n (primTys t)).flatten → (∀ x ∈ xs, InRange x) → ∃ vs : List (AVal (ZMod p)), vs.length = n ∧
        (∀ v ∈ vs, HasType t v) ∧ primsL vs = xs := by
      clear h hr xs hc
      induction n with
      | zero =>
        intro xs h _
        simp at h
        exact ⟨[], rfl, by simp, by simp [primsL, h]⟩
      | succ n ih =>
        intro xs h hr
        have hc2 : (primCount t).isSome := by simpa using hc'
        rw [List.replicate_succ, List.flatten_cons] at h
        obtain ⟨a, b, rfl, ha, hb⟩ := split_map h
        obtain ⟨v, h1, h2⟩ := prims_surj t a hc2 ha (fun x hx => hr x (List.mem_append_left _ hx))
        obtain ⟨vs, h3, h4, h5⟩ := ih (.inr hc2) b hb (fun x hx => hr x (List.mem_append_right _ hx))
        exact ⟨v :: vs, by simp [h3], by
          intro u hu
          rcases List.mem_cons.1 hu with rfl | hu
          · exact h1
          · exact h4 u hu, by simp [primsL, h2, h5]⟩
    obtain ⟨vs, h1, h2, h3⟩ := key xs h hr
    exact ⟨.array vs, by simp only [HasType]; exact ⟨h1, h2⟩, by simp [prims, h3]⟩
  | .struct ms, xs, hc, h, hr => by
    simp only [primTys] at h
    simp only [primCount] at hc
    obtain ⟨vs, h1, h2⟩ := prims_surjM ms xs hc h hr
    exact ⟨.struct vs, by simp only [HasType]; exact h1, by simp [prims, h2]⟩
  | .tuple ts, xs, hc, h, hr => by
    simp only [primTys] at h
    simp only [primCount] at hc
    obtain ⟨vs, h1, h2⟩ := prims_surjL ts xs hc h hr
    exact ⟨.tuple vs, by simp only [HasType]; exact h1, by simp [prims, h2]⟩
theorem prims_surjL : ∀ (ts : List CType) (xs : List (ZVal p)), (primCountL ts).isSome → xs.map zty = primTysL ts → (∀ x ∈ xs, InRange x) →
    ∃ vs, HasTypeL ts vs ∧ primsL vs = xs
  | [], xs, _, h, _ => by
    simp [primTysL] at h
    exact ⟨[], by simp [HasTypeL], by simp [primsL, h]⟩
  | t :: ts, xs, hc, h, hr => by
    simp only [primCountL] at hc
    simp only [primTysL] at h
    obtain ⟨a, b, rfl, ha, hb⟩ := split_map h
    split at hc
    · rename_i c1 c2 e1 e2
      obtain ⟨v, h1, h2⟩ := prims_surj t a (by simp [e1]) ha (fun x hx => hr x (List.mem_append_left _ hx))
      obtain ⟨vs, h4, h5⟩ := prims_surjL ts b (by simp [e2]) hb (fun x hx => hr x (List.mem_append_right _ hx))
      exact ⟨v :: vs, by simp only [HasTypeL]; exact ⟨h1, h4⟩, by simp [primsL, h2, h5]⟩
    · simp at hc
theorem prims_surjM : ∀ (ts : List (Str × CType)) (xs : List (ZVal p)), (primCountM ts).isSome → xs.map zty = primTysM ts → (∀ x ∈ xs, InRange x) →
    ∃ vs, HasTypeM ts vs ∧ primsM vs = xs
  | [], xs, _, h, _ => by
    simp [primTysM] at h
    exact ⟨[], by simp [HasTypeM], by simp [primsM, h]⟩
  | (k, t) :: ts, xs, hc, h, hr => by
    simp only [primCountM] at hc
    simp only [primTysM] at h
    obtain ⟨a, b, rfl, ha, hb⟩ := split_map h
    split at hc
    · rename_i c1 c2 e1 e2
      obtain ⟨v, h1, h2⟩ := prims_surj t a (by simp [e1]) ha (fun x hx => hr x (List.mem_append_left _ hx))
      obtain ⟨vs, h4, h5⟩ := prims_surjM ts b (by simp [e2]) hb (fun x hx => hr x (List.mem_append_right _ hx))
      exact ⟨(k, v) :: vs, by simp only [HasTypeM]; exact ⟨trivial, h1, h4⟩, by simp [primsM, h2, h5]⟩
    · simp at hc
end

theorem bools_array {n : ℕ} {bl : List Bool} (h : bl.length = n) : ∃ v : AVal (ZMod p), HasType (.array n .bool) v ∧ prims v = bl.map ZVal.bool := by
  apply prims_surj
  · simp [primCount]
  · subst h
    simp only [primTys]
    induction bl with
    | nil => simp
    | cons b bl ih => simp only [List.map_cons, List.length_cons, List.replicate_succ, List.flatten_cons]; rw [ih]; rfl
  · intro x hx
    obtain ⟨b, _, rfl⟩ := List.mem_map.1 hx
    trivial

/-- The results of an embedded function are the components of a value of its result type. -/
theorem embed_typed {f : Embed} {g : List ℕ} {vs rs : List (ZVal p)} {t : CType} {c : ℕ} (h : EmbedRes O f g vs (.ok rs)) (ht : embedTy f g = some t)
    (hc : primCount t = some c) (hl : rs.length = c) : ∃ v, HasType t v ∧ prims v = rs := by
  cases h with
  | castBool g b => simp [embedTy] at ht; subst ht; exact ⟨.bool b, by simp [HasType], by simp [prims]⟩
  | toBits g w n =>
    simp [embedTy] at ht; subst ht
    exact bools_array (length_bitsBE w n)
  | fromBits g bl =>
    have key : ∀ w : UW, w.bits = bl.length → ∃ v, HasType (.uint w) v ∧ prims v = [ZVal.uint (p := p) bl.length (natBE bl)] := by
      intro w hw
      refine ⟨.uint w (natBE bl), ?_, by simp [prims, hw]⟩
      simp only [HasType]
      exact ⟨trivial, by rw [hw]; exact natBE_lt bl⟩
    generalize hn : bl.length = n at ht
    unfold embedTy at ht
    split at ht <;> simp_all
    · cases ht; exact key .b8 rfl
    · cases ht; exact key .b16 rfl
    · cases ht; exact key .b32 rfl
    · cases ht; exact key .b64 rfl
  | bitArrayLe al bl hab => simp [embedTy] at ht; subst ht; exact ⟨.bool (decide (natBE al ≤ natBE bl)), by simp [HasType], by simp [prims]⟩
  | unpack n x bl ho =>
    simp [embedTy] at ht; subst ht
    simp [primCount] at hc
    exact bools_array (by rw [hc]; simpa using hl)

/-! ### Types of assignees -/

theorem distinctM_lookup {m : Str} {t : CType} : ∀ {ms : List (Str × CType)}, DistinctM ms → ms.lookup m = some t → t.Distinct
  | [], _, h => by simp at h
  | (k, t0) :: ms, hd, h => by
    simp only [DistinctM] at hd
    simp only [List.lookup] at h
    cases hm : m == k with
    | true => simp only [hm, Option.some.injEq] at h; rw [← h]; exact hd.1
    | false => simp only [hm] at h; exact distinctM_lookup hd.2 h

theorem primCountM_lookup {m : Str} {t : CType} : ∀ {ms : List (Str × CType)}, (primCountM ms).isSome → ms.lookup m = some t → (primCount t).isSome
  | [], _, h => by simp at h
  | (k, t0) :: ms, hd, h => by
    simp only [primCountM] at hd
    split at hd
    · rename_i c1 c2 e1 e2
      simp only [List.lookup] at h
      cases hm : m == k with
      | true => simp only [hm, Option.some.injEq] at h; rw [← h]; simp [e1]
      | false => simp only [hm] at h; exact primCountM_lookup (by simp [e2]) h
    · simp at hd

theorem distinctL_get {t : CType} : ∀ {ts : List CType} {i : ℕ}, DistinctL ts → ts[i]? = some t → t.Distinct
  | [], _, _, h => by simp at h
  | t0 :: ts, 0, hd, h => by
    unfold DistinctL at hd; simp at h; rw [← h]; exact hd.1
  | t0 :: ts, i + 1, hd, h => by unfold DistinctL at hd; exact distinctL_get hd.2 (by simpa using h)

theorem primCountL_get {t : CType} : ∀ {ts : List CType} {i : ℕ}, (primCountL ts).isSome → ts[i]? = some t → (primCount t).isSome
  | [], _, _, h => by simp at h
  | t0 :: ts, i, hd, h => by
    simp only [primCountL] at hd
    split at hd
    · rename_i c1 c2 e1 e2
      cases i with
      | zero => simp at h; rw [← h]; simp [e1]
      | succ i => exact primCountL_get (ts := ts) (i := i) (by rw [e2]; rfl) (by simpa using h)
    · simp at hd

theorem smallM_lookup {m : Str} {t : CType} : ∀ {ms : List (Str × CType)}, SmallM ms → (m, t) ∈ ms → t.Small
  | [], _, h => by simp at h
  | (k, t0) :: ms, hs, h => by
    simp only [SmallM] at hs
    rcases List.mem_cons.1 h with h | h
    · cases h; exact hs.1
    · exact smallM_lookup hs.2 h

theorem smallL_get {t : CType} : ∀ {ts : List CType}, SmallL ts → t ∈ ts → t.Small
  | [], _, h => by simp at h
  | t0 :: ts, hs, h => by
    simp only [SmallL] at hs
    rcases List.mem_cons.1 h with h | h
    · cases h; exact hs.1
    · exact smallL_get hs.2 h

theorem lookup_mem {α β : Type} [BEq α] [LawfulBEq α] {k : α} {l : List (α × β)} {v : β} (h : l.lookup k = some v) : (k, v) ∈ l := by
  induction l with
  | nil => simp at h
  | cons x l ih =>
    simp only [List.lookup] at h
    cases hk : k == x.1 with
    | true =>
      simp only [hk, Option.some.injEq] at h
      rw [eq_of_beq hk, ← h]
      simp
    | false =>
      simp only [hk] at h
      exact List.mem_cons_of_mem _ (ih h)

theorem TypeOk.array {n : ℕ} {t : CType} (h : TypeOk (.array n t)) : TypeOk t := by
  obtain ⟨h1, h2⟩ := h
  refine ⟨⟨h1.1, h1.2.2⟩, ?_⟩
  simp only [primCount] at h2
  split at h2
  · simp at h2
  · rename_i hh; simp [hh]
theorem TypeOk.member {ms : List (Str × CType)} {m : Str} {t : CType} (h : TypeOk (.struct ms)) (hm : ms.lookup m = some t) : TypeOk t := by
  obtain ⟨h1, h2⟩ := h
  simp only [CType.Distinct, CType.Small] at h1
  simp only [primCount] at h2
  exact ⟨⟨distinctM_lookup h1.1.2 hm, smallM_lookup h1.2 (lookup_mem hm)⟩, primCountM_lookup h2 hm⟩
theorem TypeOk.element {ts : List CType} {i : ℕ} {t : CType} (h : TypeOk (.tuple ts)) (hm : ts[i]? = some t) : TypeOk t := by
  obtain ⟨h1, h2⟩ := h
  simp only [CType.Distinct, CType.Small] at h1
  simp only [primCount] at h2
  exact ⟨⟨distinctL_get h1.1 hm, smallL_get h1.2 (List.mem_of_getElem? hm)⟩, primCountL_get h2 hm⟩

theorem assignee_typeOk : ∀ {a : TAssignee (ZMod p)} {t : CType}, a.Wt → a.ty = some t → TypeOk t := by
  intro a
  induction a with
  | ident x t0 => intro t h ht; simp only [TAssignee.ty, Option.some.injEq] at ht; subst ht; exact h
  | select a i ih =>
    intro t h ht
    obtain ⟨⟨n, t', h1⟩, _, _, h2⟩ := h
    simp only [TAssignee.ty, h1, Option.some.injEq] at ht
    subst ht
    exact (ih h2 h1).array
  | member a m ih =>
    intro t h ht
    obtain ⟨⟨ms, t', h1, h3⟩, h2⟩ := h
    simp only [TAssignee.ty, h1] at ht
    exact (ih h2 h1).member ht
  | element a i ih =>
    intro t h ht
    obtain ⟨⟨ms, t', h1, h3⟩, h2⟩ := h
    simp only [TAssignee.ty, h1] at ht
    exact (ih h2 h1).element ht

/-! ### Simulation of statements -/

/-- The states of the two programs. -/
def Sim (nm : SId → ZId) (σ : TState p) (τ : ZState p) : Prop := Rel nm σ.env τ.env ∧ τ.outs = σ.out.map prims

variable {nm : SId → ZId}

theorem exec_def1 {τ : ZState p} {x : ZId} {e : ZExpr (ZMod p)} {v : ZVal p} (h1 : evalZ τ.env e = .ok v) (rest r) :
    ExecL O τ (.definition x e :: rest) r ↔ ExecL O (τ.set x v) rest r := by
  constructor
  · intro h
    cases h with
    | fault h => cases h with
      | definitionFault h => rw [h1] at h; cases h
    | cons ha hb => cases ha with
      | definition h => rw [h1] at h; cases h; exact hb
  · intro h
    exact .cons (.definition h1) h

theorem exec_ordered : ∀ (xs : List ZId) (es : List (ZExpr (ZMod p))) (vs : List (ZVal p)) (τ : ZState p), xs.length = es.length → Ev τ.env es vs →
    ReadBeforeWrite xs es → ∀ rest r, ExecL O τ ((List.zipWith (fun x e => ZStmt.definition x e) xs es) ++ rest) r ↔ ExecL O (τ.setAll xs vs) rest r
  | [], [], vs, τ, _, he, _, rest, r => by cases he; exact Iff.rfl
  | [], _ :: _, _, _, hl, _, _, _, _ => by simp at hl
  | _ :: _, [], _, _, hl, _, _, _, _ => by simp at hl
  | x :: xs, e :: es, vs, τ, hl, he, ho, rest, r => by
    cases he with
    | @cons _ v _ vs h1 h2 =>
    simp only [List.zipWith_cons_cons, List.cons_append, ZState.setAll]
    simp only [ReadBeforeWrite] at ho
    rw [exec_def1 h1]
    refine exec_ordered xs es vs (τ.set x v) (by simpa using hl) ?_ ho.2 rest r
    refine (List.forall₂_iff_zip.2 ⟨List.Forall₂.length_eq h2, fun {z w} hzw => ?_⟩)
    have hz := (List.of_mem_zip hzw).1
    rw [← (List.forall₂_iff_zip.1 h2).2 hzw]
    apply Dce.evZ
    intro y hy
    simp only [ZState.set]
    rw [if_neg]
    intro e; subst e
    exact ho.1 z hz hy

/-- The definitions of all components of a value. -/
theorem exec_definition (hnm : Function.Injective nm) {σ : TState p} {τ : ZState p} (hr : Rel nm σ.env τ.env) {a : TAssignee (ZMod p)} {e : TExpr (ZMod p)}
    {v : AVal (ZMod p)} {as : List (SId × ZType)} {es : List (ZExpr (ZMod p))} (hw : e.Wt) (hv : evalT σ.env e = .ok v)
    (has : as = (leaves v a.sid).map leafVar) (hfa : flatA a = some as) (hty : a.ty = some e.ty) (hes : flat nm e = some es) (hlen : as.length = es.length)
    (hsim : (TStmt.definition a e).Simultaneous nm) (rest r) :
    ExecL O τ (List.zipWith (fun a e => ZStmt.definition (nm a.1) e) as es ++ rest) r ↔
      ExecL O (τ.setAll ((leaves v a.sid).map fun q => nm q.1) (prims v)) rest r := by
  have e1 : List.zipWith (fun (a : SId × ZType) e => ZStmt.definition (Z := Z) (nm a.1) e) as es =
      List.zipWith (fun x e => ZStmt.definition x e) (as.map fun a => nm a.1) es := by rw [List.zipWith_map_left]
  have e2 : (as.map fun a => nm a.1) = (leaves v a.sid).map fun q => nm q.1 := by rw [has]; simp [leafVar]
  rw [e1, e2]
  have hev : Ev τ.env es (prims v) := flat_ev hr e es v hw hes hv
  have hlen' : ((leaves v a.sid).map fun q => nm q.1).length = es.length := by rw [← e2]; simpa using hlen
  rcases hsim with h1 | ⟨t, c, ht, hc, hc1⟩ | ⟨as', es', h1, h2, h3⟩
  · refine exec_defs (Good := fun z => Rel nm (fun y => if y = a.root then none else σ.env y) z) _ _ _ _ hlen' ?_ ?_ ?_ rest r
    · intro z hz
      refine flat_ev hz e es v hw hes ?_
      rw [← hv]
      apply evalT_congr
      intro x hx
      rw [if_neg]
      intro hxa; subst hxa; exact h1 hx
    · intro z x w hx hz y u hy q hq
      obtain ⟨q', hq', rfl⟩ := List.mem_map.1 hx
      show (if nm q.1 = nm q'.1 then _ else _) = _
      rw [if_neg]
      · exact hz y u hy q hq
      · intro he
        have := hnm he
        have r1 := (leaves_under _ _ _ hq).root
        have r2 := (leaves_under _ _ _ hq').root
        rw [← this, r1, TAssignee.sid_root] at r2
        simp only [SId.root] at r2
        simp only [r2, if_true] at hy
        cases hy
    · intro y u hy q hq
      simp only at hy
      split at hy
      · cases hy
      · exact hr y u hy q hq
  · rw [hty] at ht
    cases ht
    have hp := prims_length (eval_hasType σ.env e v hw hv) hc
    have hl := hev.len
    cases es with
    | nil =>
      have : (leaves v a.sid).map (fun q => nm q.1) = [] := by simpa using hlen'
      rw [this]
      exact Iff.rfl
    | cons z es =>
      have : es = [] := by
        cases es with
        | nil => rfl
        | cons => simp at hl; omega
      subst this
      cases hx : (leaves v a.sid).map (fun q => nm q.1) with
      | nil => rw [hx] at hlen'; simp at hlen'
      | cons x xs =>
        rw [hx] at hlen'
        have : xs = [] := by simpa using hlen'
        subst this
        cases hv' : prims v with
        | nil => rw [hv'] at hev; cases hev
        | cons u us =>
          rw [hv'] at hev
          cases hev with
          | cons g1 g2 =>
            cases g2
            simp only [List.zipWith_cons_cons, List.zipWith_nil_left, List.cons_append, List.nil_append, ZState.setAll]
            exact exec_def1 g1 rest r
  · rw [hfa] at h1
    rw [hes] at h2
    cases h1; cases h2
    rw [e2] at h3
    exact exec_ordered _ _ _ _ hlen' hev h3 rest r

theorem setA_out {σ : TState p} {x : TId} {v : AVal (ZMod p)} : (σ.set x v).out = σ.out := rfl

theorem exec_single {τ : ZState p} {s : ZStmt (ZMod p) Z} {rest : List (ZStmt (ZMod p) Z)} {r} :
    ExecL O τ ([s] ++ rest) r ↔ (∃ f, r = .error f ∧ Exec O τ s (.error f)) ∨ ∃ τ', Exec O τ s (.ok τ') ∧ ExecL O τ' rest r := by
  constructor
  · intro h
    cases h with
    | fault h => exact .inl ⟨_, rfl, h⟩
    | cons h1 h2 => exact .inr ⟨_, h1, h2⟩
  · rintro (⟨f, rfl, h⟩ | ⟨τ', h1, h2⟩)
    · exact .fault h
    · exact .cons h1 h2

theorem flatLog_flatten : ∀ {es : List (TExpr (ZMod p))} {l : List (List (ZExpr (ZMod p)))}, flatLog nm es = some l → flatL nm es = some l.flatten
  | [], l, h => by simp [flatLog] at h; subst h; rfl
  | e :: es, l, h => by
    simp only [flatLog] at h
    split at h
    · rename_i a b ha hb
      cases h
      simp only [flatL, ha, flatLog_flatten hb, List.flatten_cons]
    · cases h

/-- Every execution of a typed statement is an execution of the flattened one. -/
theorem flatStmt_forward (hnm : Function.Injective nm) {σ σ' : TState p} {τ : ZState p} (hs : Sim nm σ τ) {s : TStmt (ZMod p)} {rt : CType}
    {ss : List (ZStmt (ZMod p) Z)} (hw : s.Wt rt) (hsim : s.Simultaneous nm) (hf : flatStmt nm s = some ss) (h : ExecT O σ s (.ok σ')) :
    ∃ τ', Sim nm σ' τ' ∧ ∀ rest r, ExecL O τ' rest r → ExecL O τ (ss ++ rest) r := by
  obtain ⟨hr, ho⟩ := hs
  cases h with
  | @ret e v hv =>
    simp only [flatStmt, Option.map_eq_some_iff] at hf
    obtain ⟨l, hl, rfl⟩ := hf
    refine ⟨{ τ with outs := some (prims v) }, ⟨hr, rfl⟩, fun rest r h => .cons (.ret ?_) h⟩
    exact evalZs_iff.2 (flat_ev hr e l v hw.2 hl hv)
  | @definition a e v u hv hu =>
    simp only [flatStmt] at hf
    split at hf
    · rename_i as es has hes
      split at hf
      · rename_i hlen
        cases hf
        obtain ⟨w1, w2, w3⟩ := hw
        have ht := eval_hasType σ.env e v w3 hv
        obtain ⟨l1, l2⟩ := flatA_ids has w1
        have l3 := flatIds_leaves _ v _ _ ht l2
        refine ⟨_, ⟨Rel.assign hnm hr l1 (assignee_typeOk w2 w1).1.1 ht hu, ?_⟩, fun rest r h => ?_⟩
        · rw [ZState.setAll_outs]; exact ho
        · exact (exec_definition hnm hr w3 hv l3 has w1 hes hlen hsim rest r).2 h
      · cases hf
    · cases hf
  | @embed a f g args vs v t u hvs hat ht hem hu =>
    simp only [flatStmt] at hf
    split at hf
    · rename_i as es has hes
      cases hf
      obtain ⟨w1, w2, w3⟩ := hw
      obtain ⟨l1, l2⟩ := flatA_ids has hat
      have l3 := flatIds_leaves _ v _ _ ht l2
      have e2 : (as.map fun a => nm a.1) = (leaves v a.sid).map fun q => nm q.1 := by rw [l3]; simp [leafVar]
      refine ⟨_, ⟨Rel.assign hnm hr l1 (assignee_typeOk w2 hat).1.1 ht hu, ?_⟩, fun rest r h => ?_⟩
      · rw [ZState.setAll_outs]; exact ho
      · rw [e2]
        refine .cons (.multiDef (evalZs_iff.2 (flatL_ev hr args es vs w3 hes hvs)) hem ?_) h
        rw [← leaves_snd v a.sid]; simp
    · cases hf
  | @assertOk e err hv =>
    simp only [flatStmt] at hf
    split at hf
    · rename_i b hb
      cases hf
      obtain ⟨l, hl, hb⟩ := bind_some hb
      refine ⟨τ, ⟨hr, ho⟩, fun rest r h => .cons (.assertOk ?_) h⟩
      exact popB_ev (flat_ev hr e l _ hw.2 hl hv) hb
    · cases hf
  | @log es vs hv =>
    simp only [flatStmt, Option.map_eq_some_iff] at hf
    obtain ⟨l, hl, rfl⟩ := hf
    refine ⟨τ, ⟨hr, ho⟩, fun rest r h => .cons (.log (vs := primsL vs) ?_) h⟩
    exact evalZs_iff.2 (flatL_ev hr es _ vs hw (flatLog_flatten hl) hv)

/-- Every execution of the flattened statement is an execution of the typed one, unless the typed one can fail. -/
theorem flatStmt_backward (hnm : Function.Injective nm) {σ : TState p} {τ : ZState p} (hs : Sim nm σ τ) {s : TStmt (ZMod p)} {rt : CType}
    {ss : List (ZStmt (ZMod p) Z)} (hw : s.Wt rt) (hsim : s.Simultaneous nm) (hf : flatStmt nm s = some ss) {rest r} (h : ExecL O τ (ss ++ rest) r) :
    (∃ f, ExecT O σ s (.error f)) ∨ ∃ σ' τ', ExecT O σ s (.ok σ') ∧ Sim nm σ' τ' ∧ ExecL O τ' rest r := by
  obtain ⟨hr, ho⟩ := hs
  cases s with
  | ret e =>
    simp only [flatStmt, Option.map_eq_some_iff] at hf
    obtain ⟨l, hl, rfl⟩ := hf
    cases hv : evalT σ.env e with
    | error f => exact .inl ⟨f, .retFault hv⟩
    | ok v =>
      have hev := evalZs_iff.2 (flat_ev hr e l v hw.2 hl hv)
      rcases exec_single.1 h with ⟨f, rfl, h0⟩ | ⟨τ', h1, h2⟩
      · cases h0 with
        | retFault h => rw [hev] at h; cases h
      · cases h1 with
        | ret h1 =>
          rw [hev] at h1; cases h1
          exact .inr ⟨{ σ with out := some v }, { τ with outs := some (prims v) }, .ret hv, ⟨hr, rfl⟩, h2⟩
  | definition a e =>
    cases hv : evalT σ.env e with
    | error f => exact .inl ⟨f, .rhsFault hv⟩
    | ok v =>
      cases hu : setA σ.env a v with
      | error f => exact .inl ⟨f, .lhsFault hv hu⟩
      | ok u =>
        simp only [flatStmt] at hf
        split at hf
        · rename_i as es has hes
          split at hf
          · rename_i hlen
            cases hf
            obtain ⟨w1, w2, w3⟩ := hw
            have ht := eval_hasType σ.env e v w3 hv
            obtain ⟨l1, l2⟩ := flatA_ids has w1
            have l3 := flatIds_leaves _ v _ _ ht l2
            refine .inr ⟨_, _, .definition hv hu, ⟨Rel.assign hnm hr l1 (assignee_typeOk w2 w1).1.1 ht hu, ?_⟩, ?_⟩
            · rw [ZState.setAll_outs]; exact ho
            · exact (exec_definition hnm hr w3 hv l3 has w1 hes hlen hsim rest r).1 h
          · cases hf
        · cases hf
  | embed a f g args =>
    cases hvs : evalL σ.env args with
    | error e => exact .inl ⟨e, .argsFault hvs⟩
    | ok vs =>
      simp only [flatStmt] at hf
      split at hf
      · rename_i as es has hes
        cases hf
        obtain ⟨⟨t, w0, w1⟩, w2, w3⟩ := hw
        obtain ⟨l1, l2⟩ := flatA_ids has w1
        have tok := assignee_typeOk w2 w1
        have hev := evalZs_iff.2 (flatL_ev hr args es vs w3 hes hvs)
        rcases exec_single.1 h with ⟨f', rfl, h0⟩ | ⟨τ', h1, h2⟩
        · cases h0 with
          | embedFault g1 g2 => rw [hev] at g1; cases g1; exact .inl ⟨_, .embedFault hvs g2⟩
          | argsFault g1 => rw [hev] at g1; cases g1
        · cases h1 with
          | multiDef g1 g2 g3 =>
            rename_i vs' rs
            rw [hev] at g1; cases g1
            obtain ⟨c, hc⟩ := Option.isSome_iff_exists.1 tok.2
            obtain ⟨l', m1, m2⟩ := flatIds_len t c a.sid hc
            rw [l2] at m1; cases m1
            obtain ⟨v, ht, hpv⟩ := embed_typed g2 w0 hc (by rw [g3, List.length_map, m2])
            subst hpv
            cases hu : setA σ.env a v with
            | error f' => exact .inl ⟨f', .embedLhsFault hvs w1 ht g2 hu⟩
            | ok u =>
              have l3 := flatIds_leaves _ v _ _ ht l2
              have e2 : (as.map fun a => nm a.1) = (leaves v a.sid).map fun q => nm q.1 := by rw [l3]; simp [leafVar]
              refine .inr ⟨_, _, .embed hvs w1 ht g2 hu, ⟨Rel.assign hnm hr l1 tok.1.1 ht hu, ?_⟩, ?_⟩
              · rw [ZState.setAll_outs]; exact ho
              · rw [← e2]; exact h2
      · cases hf
  | assertion e err =>
    cases hv : evalT σ.env e with
    | error f => exact .inl ⟨f, .assertFault hv⟩
    | ok v =>
      have ht := eval_hasType σ.env e v hw.2 hv
      rw [hw.1] at ht
      cases v with
      | bool k =>
        cases k with
        | false => exact .inl ⟨_, .assertFailed hv⟩
        | true =>
          simp only [flatStmt] at hf
          split at hf
          · rename_i b hb
            cases hf
            obtain ⟨l, hl, hb⟩ := bind_some hb
            have hev := popB_ev (flat_ev hr e l _ hw.2 hl hv) hb
            rcases exec_single.1 h with ⟨f, rfl, h0⟩ | ⟨τ', h1, h2⟩
            · cases h0 with
              | assertFailed h8 => rw [hev] at h8; cases h8
              | assertFault hc h8 =>
                exfalso
                obtain ⟨k, hk⟩ := conjunct_ok hc hev
                rw [hk] at h8; cases h8
            · cases h1 with
              | assertOk _ => exact .inr ⟨_, _, .assertOk hv, ⟨hr, ho⟩, h2⟩
          · cases hf
      | _ => simp [HasType] at ht
  | log es =>
    cases hvs : evalL σ.env es with
    | error e => exact .inl ⟨e, .logFault hvs⟩
    | ok vs =>
      simp only [flatStmt, Option.map_eq_some_iff] at hf
      obtain ⟨l, hl, rfl⟩ := hf
      have hev := evalZs_iff.2 (flatL_ev hr es _ vs hw (flatLog_flatten hl) hvs)
      rcases exec_single.1 h with ⟨f', rfl, h0⟩ | ⟨τ', h1, h2⟩
      · cases h0 with
        | logFault g1 => rw [hev] at g1; cases g1
      · cases h1 with
        | log _ => exact .inr ⟨_, _, .log hvs, ⟨hr, ho⟩, h2⟩

theorem flatStmts_forward (hnm : Function.Injective nm) {rt : CType} : ∀ {body : List (TStmt (ZMod p))} {σ σ' : TState p} {τ : ZState p}
    {ss : List (ZStmt (ZMod p) Z)}, Sim nm σ τ → (∀ s ∈ body, s.Wt rt) → (∀ s ∈ body, s.Simultaneous nm) → flatStmts nm body = some ss →
    ExecTs O σ body (.ok σ') → ∃ τ', Sim nm σ' τ' ∧ ExecL O τ ss (.ok τ')
  | [], σ, σ', τ, ss, hs, _, _, hf, h => by
    simp only [flatStmts] at hf; cases hf
    cases h
    exact ⟨τ, hs, .nil⟩
  | s :: body, σ, σ', τ, ss, hs, hw, hsim, hf, h => by
    simp only [flatStmts] at hf
    split at hf
    · rename_i as bs ha hb
      cases hf
      cases h with
      | cons h1 h2 =>
        obtain ⟨τ1, i1, i2⟩ := flatStmt_forward hnm hs (hw s List.mem_cons_self) (hsim s List.mem_cons_self) ha h1
        obtain ⟨τ2, i3, i4⟩ := flatStmts_forward hnm i1 (fun s hs => hw s (List.mem_cons_of_mem _ hs)) (fun s hs => hsim s (List.mem_cons_of_mem _ hs)) hb h2
        exact ⟨τ2, i3, i2 _ _ i4⟩
    · cases hf

theorem flatStmts_backward (hnm : Function.Injective nm) {rt : CType} : ∀ {body : List (TStmt (ZMod p))} {σ : TState p} {τ : ZState p}
    {ss : List (ZStmt (ZMod p) Z)} {r}, Sim nm σ τ → (∀ s ∈ body, s.Wt rt) → (∀ s ∈ body, s.Simultaneous nm) → flatStmts nm body = some ss →
    ExecL O τ ss r → (∃ f, ExecTs O σ body (.error f)) ∨ ∃ σ' τ', ExecTs O σ body (.ok σ') ∧ Sim nm σ' τ' ∧ r = .ok τ'
  | [], σ, τ, ss, r, hs, _, _, hf, h => by
    simp only [flatStmts] at hf; cases hf
    cases h
    exact .inr ⟨σ, τ, .nil, hs, rfl⟩
  | s :: body, σ, τ, ss, r, hs, hw, hsim, hf, h => by
    simp only [flatStmts] at hf
    split at hf
    · rename_i as bs ha hb
      cases hf
      rcases flatStmt_backward hnm hs (hw s List.mem_cons_self) (hsim s List.mem_cons_self) ha h with ⟨f, h1⟩ | ⟨σ1, τ1, h1, h2, h3⟩
      · exact .inl ⟨f, .fault h1⟩
      · rcases flatStmts_backward hnm h2 (fun s hs => hw s (List.mem_cons_of_mem _ hs)) (fun s hs => hsim s (List.mem_cons_of_mem _ hs)) hb h3 with
          ⟨f, h4⟩ | ⟨σ2, τ2, h4, h5, h6⟩
        · exact .inl ⟨f, .cons h1 h4⟩
        · exact .inr ⟨σ2, τ2, .cons h1 h4, h5, h6⟩
    · cases hf

end Zok.Typed
