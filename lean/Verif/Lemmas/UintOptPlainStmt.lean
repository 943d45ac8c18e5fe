import Verif.Lemmas.UintOptPlain

/-
Lemmas on the range analysis: plain statements and functions are regular.
-/

set_option linter.unusedSectionVars false
set_option linter.unusedSimpArgs false

namespace Zok.Uo
open Fld
variable {p : ℕ} {Z : Type} [Fact p.Prime] {ids : Ids p} {Γ : TCtx} {V : FullVars}

theorem uoZ_reg (hI : IdsFull V ids) {e e' : ZExpr (ZMod p)} (hw : WtZ Γ e) (hp : plainZ V e = true)
    (h : uoZ ids e = some e') : RegZ e' := by
  cases e with
  | field e =>
    simp only [uoZ, Option.map_eq_some_iff] at h
    obtain ⟨a, h1, rfl⟩ := h
    exact uoF_reg hI e hw hp h1
  | bool e =>
    simp only [uoZ, Option.map_eq_some_iff] at h
    obtain ⟨a, h1, rfl⟩ := h
    exact uoB_reg hI e hw hp h1
  | uint e =>
    simp only [uoZ, Option.map_eq_some_iff] at h
    obtain ⟨a, h1, rfl⟩ := h
    exact uoU_reg hI e hw hp h1

theorem uoZReduced_reg (hI : IdsFull V ids) {e e' : ZExpr (ZMod p)} (hw : WtZ Γ e) (hp : plainZ V e = true)
    (h : uoZReduced ids e = some e') : RegZ e' := by
  cases e with
  | field e => exact uoZ_reg hI hw hp h
  | bool e => exact uoZ_reg hI hw hp h
  | uint e =>
    simp only [uoZReduced, Option.bind_eq_bind, Option.bind_eq_some_iff, Option.some.injEq] at h
    obtain ⟨a, h1, b, h2, rfl⟩ := h
    exact (forceReduce_amax h2).2 (uoU_reg hI e hw hp h1)

theorem mapAll_reg {f : ZExpr (ZMod p) → Option (ZExpr (ZMod p))} {es es' : List (ZExpr (ZMod p))}
    (hf : ∀ e ∈ es, ∀ e', f e = some e' → RegZ e') (h : mapAll f es = some es') : ∀ e ∈ es', RegZ e := by
  induction es generalizing es' with
  | nil => cases h; simp
  | cons e es ih =>
    obtain ⟨b, bs, h1, h2, rfl⟩ := mapAll_cons h
    intro x hx
    rcases List.mem_cons.1 hx with rfl | hx
    · exact hf e (by simp) _ h1
    · exact ih (fun e he => hf e (by simp [he])) h2 x hx

theorem mapAll2_reg {f : ZExpr (ZMod p) → Option (ZExpr (ZMod p))} {es es' : List (List (ZExpr (ZMod p)))}
    (hf : ∀ e ∈ es.flatten, ∀ e', f e = some e' → RegZ e') (h : mapAll (mapAll f) es = some es') :
    ∀ e ∈ es'.flatten, RegZ e := by
  induction es generalizing es' with
  | nil => cases h; simp
  | cons e es ih =>
    obtain ⟨b, bs, h1, h2, rfl⟩ := mapAll_cons h
    intro x hx
    simp only [List.flatten_cons, List.mem_append] at hx
    rcases hx with hx | hx
    · exact mapAll_reg (fun e he => hf e (by simp [he])) h1 x hx
    · exact ih (fun e he => hf e (by simp only [List.flatten_cons, List.mem_append]; exact Or.inr he)) h2 x hx

theorem IdsFull.register (hI : IdsFull V ids) {x : ZId} {w : ℕ} {b : Bool} {m : UMeta (ZMod p)}
    (h : b = true → WidthOk p w → m.max.val = 2 ^ w - 1) : IdsFull (V.set x w b) (ids.register x w m) := by
  intro y v hv hw m' hm
  unfold FullVars.set at hv
  unfold Ids.register at hm
  by_cases hc : y = x ∧ v = w
  · rw [if_pos hc] at hv hm
    cases hm
    obtain ⟨rfl, rfl⟩ := hc
    exact h hv hw
  · rw [if_neg hc] at hv hm
    exact hI y v hv hw m' hm

theorem uoU_width {e e' : UExpr (ZMod p)} (h : uoU ids e = some e') : e'.width = e.width :=
  (uoU_same (env := fun _ => none) e h).2.1

theorem WtEmbed.args {embed : Embed} {g : List ℕ} {args : List (ZExpr (ZMod p))} {ts : List ZType}
    (h : WtEmbed Γ embed g args ts) : ∀ e ∈ args, WtZ Γ e := by
  have hb : ∀ {es : List (BExpr (ZMod p))}, WtBs Γ es → ∀ e ∈ es, WtB Γ e := by
    intro es
    induction es with
    | nil => simp
    | cons a as ih =>
      intro h e he
      simp only [WtBs] at h
      rcases List.mem_cons.1 he with rfl | he
      · exact h.1
      · exact ih h.2 e he
  cases h with
  | cast h => simpa [WtZ] using h
  | toBits h _ => simpa [WtZ] using h
  | unpack h => simpa [WtZ] using h
  | fromBits h _ =>
    intro e he
    obtain ⟨b, hb', rfl⟩ := List.mem_map.1 he
    exact hb h b hb'
  | bitArrayLe h1 h2 _ _ =>
    intro e he
    rcases List.mem_append.1 he with he | he
    · obtain ⟨b, hb', rfl⟩ := List.mem_map.1 he
      exact hb h1 b hb'
    · obtain ⟨b, hb', rfl⟩ := List.mem_map.1 he
      exact hb h2 b hb'

section
variable {hf : Z → Ids p → Option (Z × Ids p)} (hN : ∀ z ids, ∃ z', hf z ids = some (z', ids))
include hN

theorem uoAsms_reg : ∀ {ss ss' : List (ZAsm (ZMod p) Z)} {Γ Γ' : TCtx} {ids ids' : Ids p}, IdsFull V ids → WtAsms Γ ss Γ' →
    ss.all (plainAsm V) = true → uoAsms hf ids ss = some (ss', ids') → ids' = ids ∧ ∀ s ∈ ss', RegAsm s
  | [], _, _, _, _, _, _, _, _, h => by cases h; simp
  | s :: ss, ss', Γ, Γ', ids, ids', hI, hw, hp, h => by
    cases hw with
    | cons h1 h2 =>
    simp only [List.all_cons, Bool.and_eq_true] at hp
    simp only [uoAsms, Option.bind_eq_bind, Option.bind_eq_some_iff, Option.some.injEq, Prod.mk.injEq] at h
    obtain ⟨⟨s1, ids1⟩, g1, ⟨ss1, ids2⟩, g2, rfl, rfl⟩ := h
    have key : ids1 = ids ∧ RegAsm s1 := by
      cases h1 with
      | assignment _ =>
        rename_i xs f args _
        obtain ⟨f', hf'⟩ := hN f ids
        simp only [uoAsm, hf', Option.bind_eq_bind, Option.bind_some, Option.some.injEq, Prod.mk.injEq] at g1
        obtain ⟨rfl, rfl⟩ := g1
        exact ⟨rfl, trivial⟩
      | constraint hl hr =>
        simp only [plainAsm, Bool.and_eq_true] at hp
        simp only [uoAsm, Option.bind_eq_bind, Option.bind_eq_some_iff, Option.some.injEq, Prod.mk.injEq] at g1
        obtain ⟨l1, k1, r1, k2, rfl, rfl⟩ := g1
        exact ⟨rfl, uoF_reg hI _ hl hp.1.1 k1, uoF_reg hI _ hr hp.1.2 k2⟩
    obtain ⟨rfl, hs⟩ := key
    obtain ⟨rfl, hss⟩ := uoAsms_reg hI h2 hp.2 g2
    refine ⟨rfl, ?_⟩
    intro x hx
    rcases List.mem_cons.1 hx with rfl | hx
    · exact hs
    · exact hss x hx

set_option maxHeartbeats 1000000 in
mutual
theorem uoStmt_reg : ∀ (s : ZStmt (ZMod p) Z) {s' : ZStmt (ZMod p) Z} {Γ Γ' : TCtx} {ids ids' : Ids p} {V V' : FullVars},
    IdsFull V ids → WtStmt Γ s Γ' → plainStmt V s = some V' → uoStmt hf ids s = some (s', ids') →
    RegStmt s' ∧ IdsFull V' ids'
  | .ret es, s', Γ, Γ', ids, ids', V, V', hI, hw, hp, h => by
    cases hw with
    | ret hw =>
    simp only [plainStmt, Option.ite_none_right_eq_some, Option.some.injEq, List.all_eq_true] at hp
    obtain ⟨hp, rfl⟩ := hp
    simp only [uoStmt, Option.bind_eq_bind, Option.bind_eq_some_iff, Option.some.injEq, Prod.mk.injEq] at h
    obtain ⟨es', h1, rfl, rfl⟩ := h
    simp only [RegStmt]
    exact ⟨mapAll_reg (fun e he e' => uoZReduced_reg hI (hw e he) (hp e he)) h1, hI⟩
  | .definition x e, s', Γ, Γ', ids, ids', V, V', hI, hw, hp, h => by
    cases hw with
    | definition hw =>
    simp only [plainStmt, Option.ite_none_right_eq_some, Option.some.injEq] at hp
    obtain ⟨hp, rfl⟩ := hp
    simp only [uoStmt, Option.bind_eq_bind, Option.bind_eq_some_iff] at h
    obtain ⟨e', h1, h⟩ := h
    have hr := uoZ_reg hI hw hp h1
    cases e with
    | field e =>
      simp only [uoZ, Option.map_eq_some_iff] at h1
      obtain ⟨a, _, rfl⟩ := h1
      cases h
      exact ⟨hr, hI⟩
    | bool e =>
      simp only [uoZ, Option.map_eq_some_iff] at h1
      obtain ⟨a, _, rfl⟩ := h1
      cases h
      exact ⟨hr, hI⟩
    | uint e =>
      simp only [uoZ, Option.map_eq_some_iff] at h1
      obtain ⟨a, h1, rfl⟩ := h1
      simp only [Option.bind_eq_some_iff, Option.some.injEq, Prod.mk.injEq] at h
      obtain ⟨i, h2, m, h3, rfl, rfl⟩ := h
      refine ⟨(forceNoReduce_amax h2).2 hr, ?_⟩
      have hwd : i.width = e.width := by
        rw [← uoU_width h1]
        exact ((uoU_same (env := fun _ => none) e h1).noReduce h2).2.1.trans (uoU_width h1).symm
      show IdsFull (V.set x e.width _) _
      rw [hwd]
      refine hI.register fun hfull _ => ?_
      have h4 := uoU_full hI e hw hfull h1
      rw [← (forceNoReduce_amax h2).1] at h4
      rw [← h4]
      obtain ⟨w, _ | m', i'⟩ := i
      · cases h3
      · cases h3; rfl
  | .ifElse c t e, s', Γ, Γ', ids, ids', V, V', hI, hw, hp, h => by
    cases hw with
    | ifElse w1 w2 w3 =>
    simp only [plainStmt, Option.ite_none_right_eq_some, Option.bind_eq_some_iff] at hp
    obtain ⟨hp, V1, p1, p2⟩ := hp
    simp only [uoStmt, Option.bind_eq_bind, Option.bind_eq_some_iff, Option.some.injEq, Prod.mk.injEq] at h
    obtain ⟨c', h1, ⟨t', ids1⟩, h2, ⟨e', ids2⟩, h3, rfl, rfl⟩ := h
    obtain ⟨r1, I1⟩ := uoStmts_reg t hI w2 p1 h2
    obtain ⟨r2, I2⟩ := uoStmts_reg e I1 w3 p2 h3
    simp only [RegStmt]
    exact ⟨⟨uoB_reg hI c w1 hp h1, r1, r2⟩, I2⟩
  | .assertion e err, s', Γ, Γ', ids, ids', V, V', hI, hw, hp, h => by
    cases hw with
    | assertion w1 _ =>
    simp only [plainStmt, Option.ite_none_right_eq_some, Option.some.injEq] at hp
    obtain ⟨hp, rfl⟩ := hp
    simp only [uoStmt, Option.bind_eq_bind, Option.bind_eq_some_iff, Option.some.injEq, Prod.mk.injEq] at h
    obtain ⟨e', h1, rfl, rfl⟩ := h
    simp only [RegStmt]
    exact ⟨uoB_reg hI e w1 hp h1, hI⟩
  | .multiDef xs embed g args, s', Γ, Γ', ids, ids', V, V', hI, hw, hp, h => by
    cases hw with
    | multiDef w1 w2 w3 =>
    simp only [plainStmt, Option.ite_none_right_eq_some, Option.some.injEq, Bool.and_eq_true, List.all_eq_true] at hp
    obtain ⟨⟨_, hp⟩, rfl⟩ := hp
    simp only [uoStmt, Option.bind_eq_bind, Option.bind_eq_some_iff, Option.some.injEq, Prod.mk.injEq] at h
    obtain ⟨ids1, h1, args', h2, rfl, rfl⟩ := h
    have I1 : IdsFull (V.call embed xs) ids1 := by
      cases embed with
      | uFromBits w =>
        match xs, h1 with
        | [x], h1 =>
          cases h1
          refine hI.register fun _ hw => ?_
          exact val_two_pow_sub_one (by have := hw.2; omega) (by have := hw.2; have := hw.1; omega)
        | [], h1 => cases h1
        | _ :: _ :: _, h1 => cases h1
      | _ => cases h1; exact hI
    refine ⟨?_, I1⟩
    simp only [RegStmt]
    have wa := WtEmbed.args w3
    unfold uoArgs at h2
    split at h2
    · exact mapAll_reg (fun e he e' => uoZReduced_reg I1 (wa e he) (hp e he)) h2
    · exact mapAll_reg (fun e he e' => uoZ_reg I1 (wa e he) (hp e he)) h2
  | .log es, s', Γ, Γ', ids, ids', V, V', hI, hw, hp, h => by
    cases hw with
    | log hw =>
    simp only [plainStmt, Option.ite_none_right_eq_some, Option.some.injEq, List.all_eq_true] at hp
    obtain ⟨hp, rfl⟩ := hp
    simp only [uoStmt, Option.bind_eq_bind, Option.bind_eq_some_iff, Option.some.injEq, Prod.mk.injEq] at h
    obtain ⟨es', h1, rfl, rfl⟩ := h
    simp only [RegStmt]
    refine ⟨mapAll2_reg (fun e he e' => ?_) h1, hI⟩
    obtain ⟨l, hl, hm⟩ := List.mem_flatten.1 he
    exact uoZReduced_reg hI (hw e he) (hp l hl e hm)
  | .assembly ss, s', Γ, Γ', ids, ids', V, V', hI, hw, hp, h => by
    cases hw with
    | assembly hw =>
    simp only [plainStmt, Option.ite_none_right_eq_some, Option.some.injEq] at hp
    obtain ⟨hp, rfl⟩ := hp
    simp only [uoStmt, Option.bind_eq_bind, Option.bind_eq_some_iff, Option.some.injEq, Prod.mk.injEq] at h
    obtain ⟨⟨ss', ids1⟩, h1, rfl, rfl⟩ := h
    obtain ⟨rfl, hr⟩ := uoAsms_reg hN hI hw hp h1
    simp only [RegStmt]
    exact ⟨hr, hI⟩
theorem uoStmts_reg : ∀ (ss : List (ZStmt (ZMod p) Z)) {ss' : List (ZStmt (ZMod p) Z)} {Γ Γ' : TCtx} {ids ids' : Ids p}
    {V V' : FullVars}, IdsFull V ids → WtStmts Γ ss Γ' → plainStmts V ss = some V' →
    uoStmts hf ids ss = some (ss', ids') → RegStmts ss' ∧ IdsFull V' ids'
  | [], ss', Γ, Γ', ids, ids', V, V', hI, hw, hp, h => by
    simp only [plainStmts, Option.some.injEq] at hp
    simp only [uoStmts, Option.some.injEq, Prod.mk.injEq] at h
    obtain ⟨rfl, rfl⟩ := h
    subst hp
    exact ⟨by simp only [RegStmts], hI⟩
  | s :: ss, ss', Γ, Γ', ids, ids', V, V', hI, hw, hp, h => by
    cases hw with
    | cons w1 w2 =>
    simp only [plainStmts, Option.bind_eq_some_iff] at hp
    obtain ⟨V1, p1, p2⟩ := hp
    simp only [uoStmts, Option.bind_eq_bind, Option.bind_eq_some_iff, Option.some.injEq, Prod.mk.injEq] at h
    obtain ⟨⟨s1, ids1⟩, h1, ⟨ss1, ids2⟩, h2, rfl, rfl⟩ := h
    obtain ⟨r1, I1⟩ := uoStmt_reg s hI w1 p1 h1
    obtain ⟨r2, I2⟩ := uoStmts_reg ss I1 w2 p2 h2
    simp only [RegStmts]
    exact ⟨⟨r1, r2⟩, I2⟩
end

omit hN in
theorem registerParams_full : ∀ (qs : List ZParam) {ids : Ids p} {V : FullVars}, IdsFull V ids →
    IdsFull (fun x w => V x w || qs.any fun q => q.id == x && q.ty == .uint w) (registerParams ids qs)
  | [], ids, V, h => by simpa [registerParams] using h
  | ⟨x, ty, priv⟩ :: qs, ids, V, h => by
    have step : ∀ {V1 : FullVars} {ids1 : Ids p}, IdsFull V1 ids1 →
        (∀ y w, (V y w || (x == y && ty == .uint w)) = true → V1 y w = true) →
        IdsFull (fun y w => V y w || (ZParam.mk x ty priv :: qs).any fun q => q.id == y && q.ty == .uint w)
          (registerParams ids1 qs) := by
      intro V1 ids1 h1 hV y w hv
      refine registerParams_full qs h1 y w ?_
      simp only [List.any_cons] at hv
      rw [← Bool.or_assoc, Bool.or_eq_true] at hv
      rw [Bool.or_eq_true]
      exact hv.imp (hV y w) id
    cases ty with
    | field => exact step h (fun y w hv => by simpa using hv)
    | bool => exact step h (fun y w hv => by simpa using hv)
    | uint w0 =>
      refine step (V1 := V.set x w0 true) (h.register (m := parameterMeta p w0) fun _ hw => ?_) (fun y w hv => ?_)
      · exact val_two_pow_sub_one (by have := hw.2; omega) (by have := hw.2; have := hw.1; omega)
      · unfold FullVars.set
        split
        · rfl
        · rename_i hc
          simp only [Bool.or_eq_true, Bool.and_eq_true, beq_iff_eq, ZType.uint.injEq] at hv
          rcases hv with hv | ⟨rfl, rfl⟩
          · exact hv
          · exact absurd ⟨rfl, rfl⟩ hc

theorem uintOptimize_reg {f g : ZFun (ZMod p) Z} (hw : WtFun f) (hp : plainFun f = true)
    (h : uintOptimize hf f = some g) : RegStmts g.body := by
  unfold plainFun at hp
  obtain ⟨V', hp⟩ := Option.isSome_iff_exists.1 hp
  obtain ⟨_, ss, es, Γ', hb, hl, hw⟩ := hw
  simp only [uintOptimize, Option.bind_eq_bind, Option.bind_eq_some_iff, Option.some.injEq] at h
  obtain ⟨⟨b, ids'⟩, h1, rfl⟩ := h
  have h0 : IdsFull (p := p) (fun _ _ => false) (fun _ _ => none) := fun x w h => by cases h
  have hI := registerParams_full f.params h0
  simp only [Bool.false_or] at hI
  exact (uoStmts_reg hN f.body hI hw hp h1).1

end
end Zok.Uo
