import Verif.Lemmas.UintOptOk

/-
Lemmas on the range analysis: statements and functions.
-/

set_option linter.unusedSectionVars false
set_option linter.unusedSimpArgs false

namespace Zok.Uo
open Fld
variable {p : ℕ} {Z : Type} [Fact p.Prime] {ids : Ids p} {Γ : TCtx} {K : Ctx}

theorem Forced.false_emax {e0 e1 e : UExpr (ZMod p)} (h : Forced K e0 e1 false e)
    (hs : e.info.map UMeta.shouldReduce = some .no) : e.emax = e.amax := by
  obtain ⟨w, _ | ⟨m, s⟩, i⟩ := e
  · cases hs
  · simp only [UExpr.info, Option.map_some, Option.some.injEq] at hs
    subst hs
    simp [UExpr.emax, UExpr.amax, UExpr.info]

section
variable (hI : IdsOk Γ ids K)
include hI

theorem uoZ_ok (e : ZExpr (ZMod p)) (h : WtZ Γ e) : ∃ e', uoZ ids e = some e' ∧ (RegZ e' → OkZ K e') := by
  cases e with
  | field e =>
    obtain ⟨e', h1, h2⟩ := uoF_ok hI e h
    exact ⟨.field e', by simp [uoZ, h1], h2⟩
  | bool e =>
    obtain ⟨e', h1, h2⟩ := uoB_ok hI e h
    exact ⟨.bool e', by simp [uoZ, h1], h2⟩
  | uint e =>
    obtain ⟨e', h1, m, i, h2, h3, h4, h5⟩ := uoU_ok hI e h
    exact ⟨.uint e', by simp [uoZ, h1], h5⟩

theorem uoZReduced_ok (e : ZExpr (ZMod p)) (h : WtZ Γ e) :
    ∃ e', uoZReduced ids e = some e' ∧ (RegZ e' → OkZ K e') ∧ e'.Reduced := by
  cases e with
  | field e =>
    obtain ⟨e', h1, h2⟩ := uoF_ok hI e h
    exact ⟨.field e', by simp [uoZReduced, uoZ, h1], h2, trivial⟩
  | bool e =>
    obtain ⟨e', h1, h2⟩ := uoB_ok hI e h
    exact ⟨.bool e', by simp [uoZReduced, uoZ, h1], h2, trivial⟩
  | uint e =>
    obtain ⟨e', h1, f⟩ := uoU_ok hI e h
    obtain ⟨e'', h2, g⟩ := f.reduce
    exact ⟨.uint e'', by simp [uoZReduced, h1, h2], g.ok, g.reduced rfl⟩

theorem mapReduced_ok (es : List (ZExpr (ZMod p))) (h : ∀ e ∈ es, WtZ Γ e) :
    ∃ es', mapAll (uoZReduced ids) es = some es' ∧ ∀ e ∈ es', (RegZ e → OkZ K e) ∧ e.Reduced := by
  induction es with
  | nil => exact ⟨[], rfl, by simp⟩
  | cons e es ih =>
    obtain ⟨e', h1, h2, h3⟩ := uoZReduced_ok hI e (h e (by simp))
    obtain ⟨es', h4, h5⟩ := ih (fun e he => h e (by simp [he]))
    refine ⟨e' :: es', by simp [mapAll, h1, h4], ?_⟩
    intro e he
    rcases List.mem_cons.1 he with rfl | he
    · exact ⟨h2, h3⟩
    · exact h5 e he

theorem mapMapReduced_ok (es : List (List (ZExpr (ZMod p)))) (h : ∀ e ∈ es.flatten, WtZ Γ e) :
    ∃ es', mapAll (mapAll (uoZReduced ids)) es = some es' ∧ ∀ e ∈ es'.flatten, (RegZ e → OkZ K e) := by
  induction es with
  | nil => exact ⟨[], rfl, by simp⟩
  | cons e es ih =>
    obtain ⟨e', h1, h2⟩ := mapReduced_ok hI e (fun x hx => h x (by simp [hx]))
    obtain ⟨es', h4, h5⟩ := ih (fun x hx => h x (by
      simp only [List.flatten_cons, List.mem_append]; exact Or.inr hx))
    refine ⟨e' :: es', by simp [mapAll, h1, h4], ?_⟩
    intro x hx
    simp only [List.flatten_cons, List.mem_append] at hx
    rcases hx with hx | hx
    · exact (h2 x hx).1
    · exact h5 x hx

end

theorem mapAll_bools {es es' : List (BExpr (ZMod p))} (h : uoBs ids es = some es') :
    mapAll (uoZ ids) (es.map .bool) = some (es'.map .bool) := by
  induction es generalizing es' with
  | nil => cases h; rfl
  | cons e es ih =>
    simp only [uoBs, Option.bind_eq_bind, Option.bind_eq_some_iff, Option.some.injEq] at h
    obtain ⟨l', h1, r', h2, rfl⟩ := h
    simp [mapAll, uoZ, h1, ih h2]

theorem mapAll_append {α β : Type} {f : α → Option β} {as cs : List α} {bs ds : List β} (h1 : mapAll f as = some bs)
    (h2 : mapAll f cs = some ds) : mapAll f (as ++ cs) = some (bs ++ ds) := by
  induction as generalizing bs with
  | nil => cases h1; exact h2
  | cons a as ih =>
    obtain ⟨b, bs', h3, h4, rfl⟩ := mapAll_cons h1
    simp [mapAll, h3, ih h4]

theorem regBs_of_mem : ∀ {es : List (BExpr (ZMod p))}, (∀ e ∈ es.map ZExpr.bool, RegZ e) → RegBs es
  | [], _ => trivial
  | e :: es, h => by
    simp only [RegBs]
    exact ⟨h (.bool e) (by simp), regBs_of_mem (fun x hx => h x (by
      simp only [List.map_cons, List.mem_cons]; exact Or.inr hx))⟩

theorem uoB_comparesConstants {c c' : BExpr (ZMod p)} (h : uoB ids c = some c') (hc : ComparesConstants c') :
    ComparesConstants c := by
  have env : ZEnv p := fun _ => none
  cases c with
  | fieldLt l r =>
    simp only [uoB, Option.bind_eq_bind, Option.bind_eq_some_iff, Option.some.injEq] at h
    obtain ⟨l', h1, r', h2, rfl⟩ := h
    simp only [ComparesConstants] at hc ⊢
    rw [← (uoF_same (env := env) l h1).2, ← (uoF_same (env := env) r h2).2]; exact hc
  | fieldLe l r =>
    simp only [uoB, Option.bind_eq_bind, Option.bind_eq_some_iff, Option.some.injEq] at h
    obtain ⟨l', h1, r', h2, rfl⟩ := h
    simp only [ComparesConstants] at hc ⊢
    rw [← (uoF_same (env := env) l h1).2, ← (uoF_same (env := env) r h2).2]; exact hc
  | uintLt l r =>
    simp only [uoB, Option.bind_eq_bind, Option.bind_eq_some_iff, Option.some.injEq] at h
    obtain ⟨l', h1, r', h2, l'', h3, r'', h4, rfl⟩ := h
    simp only [ComparesConstants] at hc ⊢
    rw [← ((uoU_same (env := env) l h1).reduce h3).2.2.1, ← ((uoU_same (env := env) r h2).reduce h4).2.2.1]; exact hc
  | uintLe l r =>
    simp only [uoB, Option.bind_eq_bind, Option.bind_eq_some_iff, Option.some.injEq] at h
    obtain ⟨l', h1, r', h2, l'', h3, r'', h4, rfl⟩ := h
    simp only [ComparesConstants] at hc ⊢
    rw [← ((uoU_same (env := env) l h1).reduce h3).2.2.1, ← ((uoU_same (env := env) r h2).reduce h4).2.2.1]; exact hc
  | value b => cases h; exact hc
  | ident x => cases h; exact hc
  | _ =>
    exfalso
    simp only [uoB, Option.bind_eq_bind, Option.bind_eq_some_iff, Option.some.injEq] at h
    first
    | (obtain ⟨_, _, rfl⟩ := h; exact hc)
    | (obtain ⟨_, _, _, _, rfl⟩ := h; exact hc)
    | (obtain ⟨_, _, _, _, _, _, rfl⟩ := h; exact hc)
    | (obtain ⟨_, _, _, _, _, _, _, _, rfl⟩ := h; exact hc)

/-! ### Contexts -/

theorem IdsOk.set_field (hI : IdsOk Γ ids K) (x : ZId) : IdsOk (Γ.set x .field) ids (K.set x .field) := by
  intro y
  by_cases h : y = x
  · simp [TCtx.set, Ctx.set, h]
  · have := hI y
    simpa [TCtx.set, Ctx.set, h] using this

theorem IdsOk.set_bool (hI : IdsOk Γ ids K) (x : ZId) : IdsOk (Γ.set x .bool) ids (K.set x .bool) := by
  intro y
  by_cases h : y = x
  · simp [TCtx.set, Ctx.set, h]
  · have := hI y
    simpa [TCtx.set, Ctx.set, h] using this

theorem IdsOk.set_uint (hI : IdsOk Γ ids K) (x : ZId) (w : ℕ) {m : ZMod p}
    (hm : m.val < 2 ^ (requiredBits p - 1)) :
    IdsOk (Γ.set x (.uint w)) (ids.register x w ⟨m, .no⟩) (K.set x (.uint w m.val)) := by
  intro y
  by_cases h : y = x
  · subst h
    simp only [TCtx.set, Ctx.set, if_true]
    exact ⟨m, by simp [Ids.register], hm, rfl⟩
  · have := hI y
    have e : ∀ v, (ids.register x w ⟨m, .no⟩) y v = ids y v := fun v => by simp [Ids.register, h]
    simpa [TCtx.set, Ctx.set, h, e] using this

/-- Registering a variable that is not in scope does not matter. -/
theorem IdsOk.register_new (hI : IdsOk Γ ids K) {x : ZId} (hx : Γ x = Option.none) (w : ℕ) (m : UMeta (ZMod p)) :
    IdsOk Γ (ids.register x w m) K := by
  intro y
  by_cases h : y = x
  · subst h
    rw [hx]; exact hI.none hx
  · have := hI y
    have e : ∀ v, (ids.register x w m) y v = ids y v := fun v => by simp [Ids.register, h]
    simpa [e] using this

theorem IdsOk.setAll_fields {xs : List ZId} : ∀ {Γ : TCtx} {K : Ctx}, IdsOk Γ ids K →
    IdsOk (Γ.setAll xs (xs.map fun _ => .field)) ids (K.setAll xs (xs.map fun _ => .field)) := by
  induction xs with
  | nil => intro Γ K h; exact h
  | cons x xs ih => intro Γ K h; exact ih (h.set_field x)

theorem IdsOk.setAll_bools {xs : List ZId} : ∀ {n : ℕ} {Γ : TCtx} {K : Ctx}, IdsOk Γ ids K →
    IdsOk (Γ.setAll xs (List.replicate n .bool)) ids (K.setAll xs (List.replicate n .bool)) := by
  induction xs with
  | nil => intro n Γ K h; cases n <;> exact h
  | cons x xs ih =>
    intro n Γ K h
    cases n with
    | zero => exact h
    | succ n => exact ih (h.set_bool x)

/-! ### Statements -/

section
variable {hf : Z → Ids p → Option (Z × Ids p)} (hN : ∀ z ids, ∃ z', hf z ids = some (z', ids))
include hN

theorem uoAsm_ok {s : ZAsm (ZMod p) Z} {Γ' : TCtx} (hI : IdsOk Γ ids K) (h : WtAsm Γ s Γ') :
    ∃ s' K', uoAsm hf ids s = some (s', ids) ∧ IdsOk Γ' ids K' ∧ (RegAsm s' → OkAsm K s' K') := by
  cases h with
  | assignment ha =>
    rename_i xs f args
    obtain ⟨f', h1⟩ := hN f ids
    refine ⟨.assignment xs f' args, K.setAll xs (xs.map fun _ => .field), by simp [uoAsm, h1], hI.setAll_fields, fun _ => ?_⟩
    refine .assignment fun x hx => ?_
    rcases ha x hx with h | h
    · exact Or.inl (hI.field h)
    · exact Or.inr (hI.bool h)
  | constraint hl hr =>
    rename_i l r info
    obtain ⟨l', h1, o1⟩ := uoF_ok hI l hl
    obtain ⟨r', h2, o2⟩ := uoF_ok hI r hr
    refine ⟨.constraint l' r' info, K, by simp [uoAsm, h1, h2], hI, fun h => ?_⟩
    exact .constraint (o1 h.1) (o2 h.2)

theorem uoAsms_ok {ss : List (ZAsm (ZMod p) Z)} {Γ Γ' : TCtx} {K : Ctx} (hI : IdsOk Γ ids K) (h : WtAsms Γ ss Γ') :
    ∃ ss' K', uoAsms hf ids ss = some (ss', ids) ∧ IdsOk Γ' ids K' ∧ ((∀ s ∈ ss', RegAsm s) → OkAsms K ss' K') := by
  induction ss generalizing Γ K with
  | nil => cases h; exact ⟨[], K, rfl, hI, fun _ => .nil⟩
  | cons s ss ih =>
    cases h with
    | cons h1 h2 =>
      obtain ⟨s', K1, e1, i1, o1⟩ := uoAsm_ok hN hI h1
      obtain ⟨ss', K2, e2, i2, o2⟩ := ih i1 h2
      refine ⟨s' :: ss', K2, by simp [uoAsms, e1, e2], i2, fun hr => ?_⟩
      exact .cons (o1 (hr s' (by simp))) (o2 fun s hs => hr s (by simp [hs]))

theorem uoEmbed_ok {xs : List ZId} {embed : Embed} {g : List ℕ} {args : List (ZExpr (ZMod p))} {ts : List ZType}
    (hI : IdsOk Γ ids K) (hx : ∀ x ∈ xs, Γ x = none) (hl : xs.length = ts.length) (h : WtEmbed Γ embed g args ts) :
    ∃ ids' args' ks, registerEmbed ids embed xs = some ids' ∧ uoArgs ids' embed args = some args' ∧
      IdsOk (Γ.setAll xs ts) ids' (K.setAll xs ks) ∧ ((∀ e ∈ args', RegZ e) → OkEmbed K embed g args' ks) := by
  cases h with
  | cast he =>
    rename_i e
    obtain ⟨e', h1, o1⟩ := uoF_ok hI e he
    refine ⟨ids, [.field e'], [.bool], rfl, by simp [uoArgs, mapAll, uoZ, h1], ?_, fun hr => ?_⟩
    · exact hI.setAll_bools (n := 1)
    · exact .cast (o1 (hr (.field e') (by simp)))
  | toBits he hw =>
    rename_i w e
    obtain ⟨e', h1, f1⟩ := uoU_ok hI e he
    obtain ⟨e'', h2, f2⟩ := f1.reduce
    refine ⟨ids, [.uint e''], List.replicate w .bool, rfl, by simp [uoArgs, mapAll, uoZReduced, h1, h2],
      hI.setAll_bools, fun hr => ?_⟩
    exact .toBits (f2.ok (hr (.uint e'') (by simp))) (by rw [f2.width]; exact hw) (f2.reduced rfl)
  | fromBits he hw =>
    rename_i es
    obtain ⟨x, rfl⟩ : ∃ x, xs = [x] := List.length_eq_one_iff.1 hl
    have hI' := hI.register_new (hx x (by simp)) es.length ⟨2 ^ es.length - 1, .no⟩
    obtain ⟨es', h1, hlen, o1⟩ := uoBs_ok hI' es he
    have hv : ((2 : ZMod p) ^ es.length - 1).val = 2 ^ es.length - 1 :=
      val_two_pow_sub_one (by have := hw.2; omega) (by have := hw.2; omega)
    refine ⟨_, es'.map .bool, [.uint es.length (2 ^ es.length - 1)], rfl, by simp [uoArgs, mapAll_bools h1], ?_,
      fun hr => ?_⟩
    · have := hI.set_uint x es.length (m := (2 : ZMod p) ^ es.length - 1) (by
        rw [hv]
        have := hw.room'
        omega)
      rw [hv] at this
      exact this
    · have hw2 := hw.2
      have := OkEmbed.fromBits (p := p) (Γ := K) (g := g) (o1 (regBs_of_mem hr)) (by rw [hlen]; exact hw.1) (by omega)
      rw [hlen] at this
      exact this
  | bitArrayLe ha hb hl' hn =>
    rename_i as bs
    obtain ⟨as', h1, l1, o1⟩ := uoBs_ok hI as ha
    obtain ⟨bs', h2, l2, o2⟩ := uoBs_ok hI bs hb
    refine ⟨ids, as'.map .bool ++ bs'.map .bool, [.bool], rfl, ?_, hI.setAll_bools (n := 1), fun hr => ?_⟩
    · exact mapAll_append (mapAll_bools h1) (mapAll_bools h2)
    · have := OkEmbed.bitArrayLe (p := p) (Γ := K) (o1 (regBs_of_mem fun e he => hr e (List.mem_append_left _ he)))
        (o2 (regBs_of_mem fun e he => hr e (List.mem_append_right _ he))) (by omega) (by omega)
      rw [l1] at this
      exact this
  | unpack he =>
    rename_i n e
    obtain ⟨e', h1, o1⟩ := uoF_ok hI e he
    refine ⟨ids, [.field e'], List.replicate n .bool, rfl, by simp [uoArgs, mapAll, uoZ, h1], hI.setAll_bools,
      fun hr => ?_⟩
    exact .unpack (o1 (hr (.field e') (by simp)))

mutual
theorem uoStmt_ok : ∀ (s : ZStmt (ZMod p) Z) {Γ Γ' : TCtx} {ids : Ids p} {K : Ctx}, IdsOk Γ ids K → WtStmt Γ s Γ' →
    ∃ s' ids' K', uoStmt hf ids s = some (s', ids') ∧ IdsOk Γ' ids' K' ∧ (RegStmt s' → OkStmt K s' K') ∧
      (∀ es, s = .ret es → ∃ es', s' = .ret es' ∧ es'.length = es.length)
  | .ret es, Γ, Γ', ids, K, hI, h => by
    cases h with
    | ret he =>
      obtain ⟨es', h1, h2⟩ := mapReduced_ok hI es he
      refine ⟨.ret es', ids, K, by simp [uoStmt, h1], hI, fun hr => ?_, fun es0 h0 => ?_⟩
      · exact .ret fun e he => ⟨(h2 e he).1 (hr e he), (h2 e he).2⟩
      · cases h0; exact ⟨es', rfl, mapAll_length h1⟩
  | .definition x e, Γ, Γ', ids, K, hI, h => by
    cases h with
    | definition he =>
      cases e with
      | field e =>
        obtain ⟨e', h1, h2⟩ := uoF_ok hI e he
        refine ⟨.definition x (.field e'), ids, K.set x .field, by simp [uoStmt, uoZ, h1], hI.set_field x, fun hr => ?_,
          fun es0 h0 => by cases h0⟩
        exact .definition (e := .field e') (h2 hr)
      | bool e =>
        obtain ⟨e', h1, h2⟩ := uoB_ok hI e he
        refine ⟨.definition x (.bool e'), ids, K.set x .bool, by simp [uoStmt, uoZ, h1], hI.set_bool x, fun hr => ?_,
          fun es0 h0 => by cases h0⟩
        exact .definition (e := .bool e') (h2 hr)
      | uint e =>
        obtain ⟨e', h1, f1⟩ := uoU_ok hI e he
        obtain ⟨e'', h2, f2, f3⟩ := f1.noReduce
        obtain ⟨m, hm, hb, hw⟩ : ∃ m : ZMod p, e''.info = some ⟨m, .no⟩ ∧ e''.amax = m.val ∧ e''.width = e.width := by
          have hw := f2.width
          obtain ⟨w, _ | ⟨m, s⟩, i⟩ := e''
          · cases f3
          · simp only [UExpr.info, Option.map_some, Option.some.injEq] at f3
            subst f3
            exact ⟨m, rfl, rfl, hw⟩
        refine ⟨.definition x (.uint e''), ids.register x e''.width ⟨m, .no⟩, K.set x (.uint e''.width e''.emax),
          by simp [uoStmt, uoZ, h1, h2, hm], ?_, fun hr => ?_, fun es0 h0 => by cases h0⟩
        · rw [f2.false_emax f3, hb, hw]
          exact hI.set_uint x _ (by rw [← hb]; exact f2.bound)
        · exact .definition (e := .uint e'') (f2.ok hr)
  | .ifElse c t e, Γ, Γ', ids, K, hI, h => by
    cases h with
    | ifElse hc ht he =>
      obtain ⟨c', h1, o1⟩ := uoB_ok hI c hc
      obtain ⟨t', ids1, K1, h2, i2, o2, _⟩ := uoStmts_ok t hI ht
      obtain ⟨e', ids2, K2, h3, i3, o3, _⟩ := uoStmts_ok e i2 he
      refine ⟨.ifElse c' t' e', ids2, K2, by simp [uoStmt, h1, h2, h3], i3, fun hr => ?_, fun es0 h0 => by cases h0⟩
      simp only [RegStmt] at hr
      exact .ifElse (o1 hr.1) (o2 hr.2.1) (o3 hr.2.2)
  | .assertion e err, Γ, Γ', ids, K, hI, h => by
    cases h with
    | assertion he hc =>
      obtain ⟨e', h1, o1⟩ := uoB_ok hI e he
      refine ⟨.assertion e' err, ids, K, by simp [uoStmt, h1], hI, fun hr => ?_, fun es0 h0 => by cases h0⟩
      refine .assertion (o1 hr) fun c hcj hcc => ?_
      obtain ⟨c', g1, _, g2⟩ := uoB_conjunct_back (env := fun _ => none) e h1 hcj
      exact hc c' g1 (uoB_comparesConstants g2 hcc)
  | .multiDef xs embed g args, Γ, Γ', ids, K, hI, h => by
    cases h with
    | multiDef hx hl he =>
      obtain ⟨ids', args', ks, h1, h2, i3, o3⟩ := uoEmbed_ok hN hI hx hl he
      refine ⟨.multiDef xs embed g args', ids', K.setAll xs ks, by simp [uoStmt, h1, h2], i3, fun hr => ?_,
        fun es0 h0 => by cases h0⟩
      exact .multiDef (fun x h => hI.none (hx x h)) (o3 hr)
  | .log es, Γ, Γ', ids, K, hI, h => by
    cases h with
    | log he =>
      obtain ⟨es', h1, h2⟩ := mapMapReduced_ok hI es he
      refine ⟨.log es', ids, K, by simp [uoStmt, h1], hI, fun hr => ?_, fun es0 h0 => by cases h0⟩
      exact .log fun e he => h2 e he (hr e he)
  | .assembly ss, Γ, Γ', ids, K, hI, h => by
    cases h with
    | assembly ha =>
      obtain ⟨ss', K', h1, h2, h3⟩ := uoAsms_ok hN hI ha
      exact ⟨.assembly ss', ids, K', by simp [uoStmt, h1], h2, fun hr => .assembly (h3 hr), fun es0 h0 => by cases h0⟩
theorem uoStmts_ok : ∀ (ss : List (ZStmt (ZMod p) Z)) {Γ Γ' : TCtx} {ids : Ids p} {K : Ctx}, IdsOk Γ ids K →
    WtStmts Γ ss Γ' → ∃ ss' ids' K', uoStmts hf ids ss = some (ss', ids') ∧ IdsOk Γ' ids' K' ∧
      (RegStmts ss' → OkStmts K ss' K') ∧
      (∀ init es, ss = init ++ [.ret es] → ∃ init' es', ss' = init' ++ [.ret es'] ∧ es'.length = es.length)
  | [], Γ, Γ', ids, K, hI, h => by
    cases h
    exact ⟨[], ids, K, rfl, hI, fun _ => .nil, fun init es h => by simp at h⟩
  | s :: ss, Γ, Γ', ids, K, hI, h => by
    cases h with
    | cons h1 h2 =>
      obtain ⟨s', ids1, K1, e1, i1, o1, r1⟩ := uoStmt_ok s hI h1
      obtain ⟨ss', ids2, K2, e2, i2, o2, r2⟩ := uoStmts_ok ss i1 h2
      refine ⟨s' :: ss', ids2, K2, by simp [uoStmts, e1, e2], i2, fun hr => ?_, fun init es he => ?_⟩
      · simp only [RegStmts] at hr
        exact .cons (o1 hr.1) (o2 hr.2)
      · cases init with
        | nil =>
          simp only [List.nil_append, List.cons.injEq] at he
          obtain ⟨rfl, rfl⟩ := he
          obtain ⟨es', rfl, hl⟩ := r1 es rfl
          have : ss' = [] := by
            simp only [uoStmts, Option.some.injEq, Prod.mk.injEq] at e2
            exact e2.1.symm
          exact ⟨[], es', by simp [this], hl⟩
        | cons a init =>
          simp only [List.cons_append, List.cons.injEq] at he
          obtain ⟨init', es', h3, h4⟩ := r2 init es he.2
          exact ⟨s' :: init', es', by simp [h3], h4⟩
end

theorem registerParams_ok : ∀ (qs : List ZParam) {Γ : TCtx} {ids : Ids p} {K : Ctx}, (∀ q ∈ qs, q.ty.Fits p) →
    IdsOk Γ ids K → IdsOk (Γ.setAll (qs.map ZParam.id) (qs.map ZParam.ty)) (registerParams ids qs)
      (K.setAll (qs.map ZParam.id) (qs.map fun q => q.ty.kind))
  | [], _, _, _, _, h => h
  | ⟨x, ty, priv⟩ :: qs, Γ, ids, K, hq, h => by
    have hq' : ∀ q ∈ qs, q.ty.Fits p := fun q hm => hq q (by simp [hm])
    have h0 := hq ⟨x, ty, priv⟩ (by simp)
    cases ty with
    | field => exact registerParams_ok qs hq' (h.set_field x)
    | bool => exact registerParams_ok qs hq' (h.set_bool x)
    | uint w =>
      have hw : WidthOk p w := h0
      have hv : ((2 : ZMod p) ^ w - 1).val = 2 ^ w - 1 :=
        val_two_pow_sub_one (by have := hw.2; omega) (by have := hw.2; omega)
      have h1 := h.set_uint x w (m := (2 : ZMod p) ^ w - 1) (by
        rw [hv]
        have := hw.room'
        omega)
      rw [hv] at h1
      exact registerParams_ok qs hq' h1

theorem uintOptimize_ok {f : ZFun (ZMod p) Z} (h : WtFun f) :
    ∃ g, uintOptimize hf f = some g ∧ (RegStmts g.body → OkFun g) := by
  obtain ⟨hp, ss, es, Γ', hb, hl, hw⟩ := h
  have h0 : IdsOk (p := p) (fun _ => none) (fun _ _ => none) (fun _ => none) := fun x => rfl
  have h1 := registerParams_ok hN f.params hp h0
  obtain ⟨body', ids', K', e1, _, o1, r1⟩ := uoStmts_ok hN f.body h1 hw
  obtain ⟨init', es', h3, h4⟩ := r1 ss es hb
  refine ⟨⟨f.params, body', f.returnCount⟩, by simp [uintOptimize, e1], fun hr => ⟨fun q hq => ?_, init', es', K', h3, ?_, o1 hr⟩⟩
  · have := hp q hq
    revert this
    cases q.ty <;> simp [ZType.Fits, ZType.Ok, WidthOk]
    intro a b
    exact ⟨a, by omega⟩
  · simp only; omega

end
end Zok.Uo
