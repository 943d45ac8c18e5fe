import Verif.Model.UintOpt
import Verif.Spec.ZirWt

/-
Lemmas on the range analysis: annotations do not change the meaning.
-/

set_option linter.unusedSectionVars false
set_option linter.unusedSimpArgs false

namespace Zok.Uo
variable {p : ℕ} {Z : Type} [Fact p.Prime]

theorem forceReduce_eq {e e' : UExpr (ZMod p)} (h : forceReduce e = some e') :
    ∃ w m i, e = .mk w (some m) i ∧ e' = .mk w (some ⟨m.max, .yes⟩) i := by
  obtain ⟨w, _ | m, i⟩ := e
  · cases h
  · cases h; exact ⟨w, m, i, rfl, rfl⟩

theorem forceNoReduce_eq {e e' : UExpr (ZMod p)} (h : forceNoReduce e = some e') :
    ∃ w m i, e = .mk w (some m) i ∧ e' = .mk w (some ⟨m.max, .no⟩) i ∧ m.shouldReduce ≠ .yes := by
  obtain ⟨w, _ | ⟨m, s⟩, i⟩ := e
  · cases h
  · cases s
    · cases h; exact ⟨w, _, i, rfl, rfl, by simp⟩
    · cases h
    · cases h; exact ⟨w, _, i, rfl, rfl, by simp⟩

theorem isConst_info {F : Type} (w : ℕ) (m m' : Option (UMeta F)) (i : UInner F) :
    UExpr.isConst (.mk w m i) = UExpr.isConst (.mk w m' i) := by
  cases i <;> try rfl
  rename_i a b
  cases a <;> rfl

section
variable {env : ZEnv p}

/-- Same value, and same constantness. -/
def SameU (env : ZEnv p) (e' e : UExpr (ZMod p)) : Prop :=
  evalU env e' = evalU env e ∧ e'.width = e.width ∧ e'.isConst = e.isConst ∧ literal? e' = literal? e

theorem SameU.reduce {e e' e0 : UExpr (ZMod p)} (h : SameU env e e0) (hf : forceReduce e = some e') : SameU env e' e0 := by
  obtain ⟨w, m, i, rfl, rfl⟩ := forceReduce_eq hf
  exact ⟨by rw [← h.1]; rfl, by rw [← h.2.1]; rfl, by rw [← h.2.2.1]; exact isConst_info _ _ _ _,
    by rw [← h.2.2.2]; cases i <;> rfl⟩

theorem SameU.noReduce {e e' e0 : UExpr (ZMod p)} (h : SameU env e e0) (hf : forceNoReduce e = some e') :
    SameU env e' e0 := by
  obtain ⟨w, m, i, rfl, rfl, _⟩ := forceNoReduce_eq hf
  exact ⟨by rw [← h.1]; rfl, by rw [← h.2.1]; rfl, by rw [← h.2.2.1]; exact isConst_info _ _ _ _,
    by rw [← h.2.2.2]; cases i <;> rfl⟩

theorem SameU.forceIf {b : Bool} {e e' e0 : UExpr (ZMod p)} (h : SameU env e e0) (hf : forceIf b e = some e') :
    SameU env e' e0 := by
  cases b
  · exact h.noReduce hf
  · exact h.reduce hf

theorem evalU_literal {e : UExpr (ZMod p)} {n : ℕ} (h : literal? e = some n) : evalU env e = .ok n := by
  obtain ⟨w, m, i⟩ := e
  cases i <;> cases h
  rfl

theorem isConst_pow {F : Type} (b : FExpr F) (e : UExpr F) :
    (FExpr.pow b e).isConst = match e with
      | .mk _ _ (.value 0) => true
      | _ => false := by
  obtain ⟨w, m, i⟩ := e
  cases i <;> try rfl
  rename_i n
  cases n <;> rfl

theorem isConst_pow_of_literal {b b' : FExpr (ZMod p)} {e e' : UExpr (ZMod p)} (h : literal? e' = literal? e) :
    (FExpr.pow b' e').isConst = (FExpr.pow b e).isConst := by
  rw [isConst_pow, isConst_pow]
  obtain ⟨w, m, i⟩ := e
  obtain ⟨w', m', i'⟩ := e'
  cases i <;> cases i' <;> simp [literal?] at h ⊢
  subst h; split <;> simp_all

theorem isConst_pow' {b : FExpr (ZMod p)} {e : UExpr (ZMod p)} :
    (FExpr.pow b e).isConst = decide (literal? e = some 0) := by
  rw [isConst_pow]
  obtain ⟨w, m, i⟩ := e
  cases i <;> simp [literal?]
  rename_i n
  cases n <;> simp

set_option maxHeartbeats 2000000 in
mutual
theorem uoF_same {ids : Ids p} : ∀ (e : FExpr (ZMod p)) {e' : FExpr (ZMod p)}, uoF ids e = some e' →
    evalF env e' = evalF env e ∧ e'.isConst = e.isConst
  | .value _, e', h => by cases h; exact ⟨rfl, rfl⟩
  | .ident _, e', h => by cases h; exact ⟨rfl, rfl⟩
  | .select es i, e', h => by
    simp only [uoF, Option.bind_eq_bind, Option.bind_eq_some_iff, Option.some.injEq] at h
    obtain ⟨es', h1, i', h2, i'', h3, rfl⟩ := h
    refine ⟨?_, rfl⟩
    simp only [evalF, uoFs_same es h1, ((uoU_same i h2).reduce h3).1]
  | .add l r, e', h => by
    simp only [uoF, Option.bind_eq_bind, Option.bind_eq_some_iff, Option.some.injEq] at h
    obtain ⟨l', h1, r', h2, rfl⟩ := h
    refine ⟨?_, rfl⟩
    simp only [evalF, (uoF_same l h1).1, (uoF_same r h2).1]
  | .sub l r, e', h => by
    simp only [uoF, Option.bind_eq_bind, Option.bind_eq_some_iff, Option.some.injEq] at h
    obtain ⟨l', h1, r', h2, rfl⟩ := h
    refine ⟨?_, rfl⟩
    simp only [evalF, (uoF_same l h1).1, (uoF_same r h2).1]
  | .mult l r, e', h => by
    simp only [uoF, Option.bind_eq_bind, Option.bind_eq_some_iff, Option.some.injEq] at h
    obtain ⟨l', h1, r', h2, rfl⟩ := h
    refine ⟨?_, rfl⟩
    simp only [evalF, (uoF_same l h1).1, (uoF_same r h2).1]
  | .div l r, e', h => by
    simp only [uoF, Option.bind_eq_bind, Option.bind_eq_some_iff, Option.some.injEq] at h
    obtain ⟨l', h1, r', h2, rfl⟩ := h
    refine ⟨?_, rfl⟩
    simp only [evalF, (uoF_same l h1).1, (uoF_same r h2).1]
  | .and l r, e', h => by
    simp only [uoF, Option.bind_eq_bind, Option.bind_eq_some_iff, Option.some.injEq] at h
    obtain ⟨l', h1, r', h2, rfl⟩ := h
    refine ⟨?_, rfl⟩
    simp only [evalF, (uoF_same l h1).1, (uoF_same r h2).1]
  | .or l r, e', h => by
    simp only [uoF, Option.bind_eq_bind, Option.bind_eq_some_iff, Option.some.injEq] at h
    obtain ⟨l', h1, r', h2, rfl⟩ := h
    refine ⟨?_, rfl⟩
    simp only [evalF, (uoF_same l h1).1, (uoF_same r h2).1]
  | .xor l r, e', h => by
    simp only [uoF, Option.bind_eq_bind, Option.bind_eq_some_iff, Option.some.injEq] at h
    obtain ⟨l', h1, r', h2, rfl⟩ := h
    refine ⟨?_, rfl⟩
    simp only [evalF, (uoF_same l h1).1, (uoF_same r h2).1]
  | .pow l r, e', h => by
    simp only [uoF, Option.bind_eq_bind, Option.bind_eq_some_iff, Option.some.injEq] at h
    obtain ⟨l', h1, r', h2, rfl⟩ := h
    refine ⟨?_, isConst_pow_of_literal (uoU_same r h2).2.2.2⟩
    simp only [evalF, (uoF_same l h1).1, (uoU_same r h2).1]
  | .leftShift l r, e', h => by
    simp only [uoF, Option.bind_eq_bind, Option.bind_eq_some_iff, Option.some.injEq] at h
    obtain ⟨l', h1, r', h2, rfl⟩ := h
    exact ⟨by simp only [evalF], rfl⟩
  | .rightShift l r, e', h => by
    simp only [uoF, Option.bind_eq_bind, Option.bind_eq_some_iff, Option.some.injEq] at h
    obtain ⟨l', h1, r', h2, rfl⟩ := h
    exact ⟨by simp only [evalF], rfl⟩
  | .cond c l r, e', h => by
    simp only [uoF, Option.bind_eq_bind, Option.bind_eq_some_iff, Option.some.injEq] at h
    obtain ⟨c', h0, l', h1, r', h2, rfl⟩ := h
    refine ⟨?_, rfl⟩
    simp only [evalF, (uoF_same l h1).1, (uoF_same r h2).1, uoB_same c h0]
theorem uoFs_same {ids : Ids p} : ∀ (es : List (FExpr (ZMod p))) {es' : List (FExpr (ZMod p))}, uoFs ids es = some es' →
    evalFs env es' = evalFs env es
  | [], _, h => by cases h; rfl
  | e :: es, es', h => by
    simp only [uoFs, Option.bind_eq_bind, Option.bind_eq_some_iff, Option.some.injEq] at h
    obtain ⟨l', h1, r', h2, rfl⟩ := h
    simp only [evalFs, (uoF_same e h1).1, uoFs_same es h2]
theorem uoB_same {ids : Ids p} : ∀ (e : BExpr (ZMod p)) {e' : BExpr (ZMod p)}, uoB ids e = some e' →
    evalB env e' = evalB env e
  | .value _, e', h => by cases h; rfl
  | .ident _, e', h => by cases h; rfl
  | .select es i, e', h => by
    simp only [uoB, Option.bind_eq_bind, Option.bind_eq_some_iff, Option.some.injEq] at h
    obtain ⟨es', h1, i', h2, i'', h3, rfl⟩ := h
    simp only [evalB, uoBs_same es h1, ((uoU_same i h2).reduce h3).1]
  | .fieldLt l r, e', h => by
    simp only [uoB, Option.bind_eq_bind, Option.bind_eq_some_iff, Option.some.injEq] at h
    obtain ⟨l', h1, r', h2, rfl⟩ := h
    simp only [evalB, (uoF_same l h1).1, (uoF_same r h2).1, (uoF_same l h1).2,
      (uoF_same r h2).2]
  | .fieldLe l r, e', h => by
    simp only [uoB, Option.bind_eq_bind, Option.bind_eq_some_iff, Option.some.injEq] at h
    obtain ⟨l', h1, r', h2, rfl⟩ := h
    simp only [evalB, (uoF_same l h1).1, (uoF_same r h2).1, (uoF_same l h1).2,
      (uoF_same r h2).2]
  | .fieldEq l r, e', h => by
    simp only [uoB, Option.bind_eq_bind, Option.bind_eq_some_iff, Option.some.injEq] at h
    obtain ⟨l', h1, r', h2, rfl⟩ := h
    simp only [evalB, (uoF_same l h1).1, (uoF_same r h2).1, (uoF_same l h1).2,
      (uoF_same r h2).2]
  | .uintLt l r, e', h => by
    simp only [uoB, Option.bind_eq_bind, Option.bind_eq_some_iff, Option.some.injEq] at h
    obtain ⟨l', h1, r', h2, l'', h3, r'', h4, rfl⟩ := h
    simp only [evalB, ((uoU_same l h1).reduce h3).1, ((uoU_same r h2).reduce h4).1]
  | .uintLe l r, e', h => by
    simp only [uoB, Option.bind_eq_bind, Option.bind_eq_some_iff, Option.some.injEq] at h
    obtain ⟨l', h1, r', h2, l'', h3, r'', h4, rfl⟩ := h
    simp only [evalB, ((uoU_same l h1).reduce h3).1, ((uoU_same r h2).reduce h4).1]
  | .uintEq l r, e', h => by
    simp only [uoB, Option.bind_eq_bind, Option.bind_eq_some_iff, Option.some.injEq] at h
    obtain ⟨l', h1, r', h2, l'', h3, r'', h4, rfl⟩ := h
    simp only [evalB, ((uoU_same l h1).reduce h3).1, ((uoU_same r h2).reduce h4).1]
  | .boolEq l r, e', h => by
    simp only [uoB, Option.bind_eq_bind, Option.bind_eq_some_iff, Option.some.injEq] at h
    obtain ⟨l', h1, r', h2, rfl⟩ := h
    simp only [evalB, uoB_same l h1, uoB_same r h2]
  | .or l r, e', h => by
    simp only [uoB, Option.bind_eq_bind, Option.bind_eq_some_iff, Option.some.injEq] at h
    obtain ⟨l', h1, r', h2, rfl⟩ := h
    simp only [evalB, uoB_same l h1, uoB_same r h2]
  | .and l r, e', h => by
    simp only [uoB, Option.bind_eq_bind, Option.bind_eq_some_iff, Option.some.injEq] at h
    obtain ⟨l', h1, r', h2, rfl⟩ := h
    simp only [evalB, uoB_same l h1, uoB_same r h2]
  | .not l, e', h => by
    simp only [uoB, Option.bind_eq_bind, Option.bind_eq_some_iff, Option.some.injEq] at h
    obtain ⟨l', h1, rfl⟩ := h
    simp only [evalB, uoB_same l h1]
  | .cond c l r, e', h => by
    simp only [uoB, Option.bind_eq_bind, Option.bind_eq_some_iff, Option.some.injEq] at h
    obtain ⟨c', h0, l', h1, r', h2, rfl⟩ := h
    simp only [evalB, uoB_same l h1, uoB_same r h2, uoB_same c h0]
theorem uoBs_same {ids : Ids p} : ∀ (es : List (BExpr (ZMod p))) {es' : List (BExpr (ZMod p))}, uoBs ids es = some es' →
    evalBs env es' = evalBs env es
  | [], _, h => by cases h; rfl
  | e :: es, es', h => by
    simp only [uoBs, Option.bind_eq_bind, Option.bind_eq_some_iff, Option.some.injEq] at h
    obtain ⟨l', h1, r', h2, rfl⟩ := h
    simp only [evalBs, uoB_same e h1, uoBs_same es h2]
theorem uoU_same {ids : Ids p} : ∀ (e : UExpr (ZMod p)) {e' : UExpr (ZMod p)}, uoU ids e = some e' → SameU env e' e
  | .mk w (some m) i, e', h => by cases h; exact ⟨rfl, rfl, rfl, rfl⟩
  | .mk w none i, e', h => by
    rw [uoU] at h
    split at h
    · simp only [Option.bind_eq_bind, Option.bind_eq_some_iff, Option.some.injEq] at h
      obtain ⟨⟨m, i'⟩, h1, rfl⟩ := h
      obtain ⟨g1, g2, g3⟩ := uoUI_same w i h1
      refine ⟨?_, rfl, g2, g3⟩
      simp only [evalU]; exact g1
    · cases h
theorem uoUs_same {ids : Ids p} : ∀ (es : List (UExpr (ZMod p))) {es' : List (UExpr (ZMod p))}, uoUs ids es = some es' →
    evalUs env es' = evalUs env es ∧ es'.length = es.length
  | [], _, h => by cases h; exact ⟨rfl, rfl⟩
  | e :: es, es', h => by
    simp only [uoUs, Option.bind_eq_bind, Option.bind_eq_some_iff, Option.some.injEq] at h
    obtain ⟨l', h1, l'', h3, r', h2, rfl⟩ := h
    obtain ⟨g1, g2⟩ := uoUs_same es h2
    exact ⟨by simp only [evalUs, ((uoU_same e h1).noReduce h3).1, g1], by simp only [List.length_cons, g2]⟩
theorem uoUI_same {ids : Ids p} (w : ℕ) : ∀ (i : UInner (ZMod p)) {m : UMeta (ZMod p)} {i' : UInner (ZMod p)},
    uoUI ids w i = some (m, i') → evalUI env w i' = evalUI env w i ∧
      UExpr.isConst (.mk w (some m) i') = UExpr.isConst (.mk w none i) ∧
      literal? (.mk w (some m) i') = literal? (p := p) (.mk w none i)
  | .value _, m, i', h => by cases h; exact ⟨rfl, rfl, rfl⟩
  | .ident x, m, i', h => by
    simp only [uoUI, Option.bind_eq_bind, Option.bind_eq_some_iff, Option.some.injEq] at h
    obtain ⟨m', h1, h2⟩ := h
    cases h2
    exact ⟨rfl, rfl, rfl⟩
  | .select es i, m, e', h => by
    simp only [uoUI, Option.bind_eq_bind, Option.bind_eq_some_iff, Option.some.injEq] at h
    obtain ⟨i', h1, i'', h2, es', h3, n, h4, m', h5, h6⟩ := h
    cases h6
    obtain ⟨g1, g2⟩ := uoUs_same es h3
    refine ⟨?_, ?_, rfl⟩
    · simp only [evalUI, g1, ((uoU_same i h1).reduce h2).1]
    · cases es <;> cases es' <;> simp at g2 <;> rfl
  | .add l r, m, e', h => by
    simp only [uoUI, Option.bind_eq_bind, Option.bind_eq_some_iff, Option.some.injEq] at h
    obtain ⟨l1, h1, r1, h2, lm, h3, rm, h4, ⟨bl, br, mm⟩, h5, l2, h6, r2, h7, h8⟩ := h
    cases h8
    refine ⟨?_, rfl, rfl⟩
    simp only [evalUI, ((uoU_same l h1).forceIf h6).1, ((uoU_same r h2).forceIf h7).1]
  | .sub l r, m, e', h => by
    simp only [uoUI, Option.bind_eq_bind, Option.bind_eq_some_iff, Option.some.injEq] at h
    obtain ⟨l1, h1, r1, h2, lm, h3, rm, h4, ⟨bl, br, mm⟩, h5, l2, h6, r2, h7, h8⟩ := h
    cases h8
    refine ⟨?_, rfl, rfl⟩
    simp only [evalUI, ((uoU_same l h1).forceIf h6).1, ((uoU_same r h2).forceIf h7).1]
  | .mult l r, m, e', h => by
    simp only [uoUI, Option.bind_eq_bind, Option.bind_eq_some_iff, Option.some.injEq] at h
    obtain ⟨l1, h1, r1, h2, lm, h3, rm, h4, ⟨bl, br, mm⟩, h5, l2, h6, r2, h7, h8⟩ := h
    cases h8
    refine ⟨?_, rfl, rfl⟩
    simp only [evalUI, ((uoU_same l h1).forceIf h6).1, ((uoU_same r h2).forceIf h7).1]
  | .div l r, m, e', h => by
    simp only [uoUI, Option.bind_eq_bind, Option.bind_eq_some_iff, Option.some.injEq] at h
    obtain ⟨l1, h1, r1, h2, l2, h6, r2, h7, h8⟩ := h
    cases h8
    refine ⟨?_, rfl, rfl⟩
    have e1 := ((uoU_same l h1).reduce h6).1
    have e2 := ((uoU_same r h2).reduce h7).1
    rw [evalUI, evalUI, e1, e2]
  | .rem l r, m, e', h => by
    simp only [uoUI, Option.bind_eq_bind, Option.bind_eq_some_iff, Option.some.injEq] at h
    obtain ⟨l1, h1, r1, h2, l2, h6, r2, h7, h8⟩ := h
    cases h8
    refine ⟨?_, rfl, rfl⟩
    have e1 := ((uoU_same l h1).reduce h6).1
    have e2 := ((uoU_same r h2).reduce h7).1
    rw [evalUI, evalUI, e1, e2]
  | .xor l r, m, e', h => by
    simp only [uoUI, Option.bind_eq_bind, Option.bind_eq_some_iff, Option.some.injEq] at h
    obtain ⟨l1, h1, r1, h2, l2, h6, r2, h7, h8⟩ := h
    cases h8
    refine ⟨?_, rfl, rfl⟩
    have e1 := ((uoU_same l h1).reduce h6).1
    have e2 := ((uoU_same r h2).reduce h7).1
    rw [evalUI, evalUI, e1, e2]
  | .and l r, m, e', h => by
    simp only [uoUI, Option.bind_eq_bind, Option.bind_eq_some_iff, Option.some.injEq] at h
    obtain ⟨l1, h1, r1, h2, l2, h6, r2, h7, h8⟩ := h
    cases h8
    refine ⟨?_, rfl, rfl⟩
    have e1 := ((uoU_same l h1).reduce h6).1
    have e2 := ((uoU_same r h2).reduce h7).1
    rw [evalUI, evalUI, e1, e2]
  | .or l r, m, e', h => by
    simp only [uoUI, Option.bind_eq_bind, Option.bind_eq_some_iff, Option.some.injEq] at h
    obtain ⟨l1, h1, r1, h2, l2, h6, r2, h7, h8⟩ := h
    cases h8
    refine ⟨?_, rfl, rfl⟩
    have e1 := ((uoU_same l h1).reduce h6).1
    have e2 := ((uoU_same r h2).reduce h7).1
    rw [evalUI, evalUI, e1, e2]
  | .leftShift l r, m, e', h => by
    simp only [uoUI, Option.bind_eq_bind, Option.bind_eq_some_iff, Option.some.injEq] at h
    obtain ⟨l1, h1, r1, h2, n, h3, lm, h4, mm, h5, l2, h6, h8⟩ := h
    cases h8
    refine ⟨?_, rfl, rfl⟩
    simp only [evalUI, ((uoU_same l h1).reduce h6).1, ← (uoU_same r h2).1, evalU_literal h3, evalU]
  | .rightShift l r, m, e', h => by
    simp only [uoUI, Option.bind_eq_bind, Option.bind_eq_some_iff, Option.some.injEq] at h
    obtain ⟨l1, h1, r1, h2, n, h3, lm, h4, mm, h5, l2, h6, h8⟩ := h
    cases h8
    refine ⟨?_, rfl, rfl⟩
    simp only [evalUI, ((uoU_same l h1).reduce h6).1, ← (uoU_same r h2).1, evalU_literal h3, evalU]
  | .not l, m, e', h => by
    simp only [uoUI, Option.bind_eq_bind, Option.bind_eq_some_iff, Option.some.injEq] at h
    obtain ⟨l1, h1, l2, h6, h8⟩ := h
    cases h8
    refine ⟨?_, rfl, rfl⟩
    simp only [evalUI, ((uoU_same l h1).reduce h6).1]
  | .cond c l r, m, e', h => by
    simp only [uoUI, Option.bind_eq_bind, Option.bind_eq_some_iff, Option.some.injEq] at h
    obtain ⟨c', h0, l1, h1, r1, h2, lm, h3, rm, h4, l2, h6, r2, h7, mm, h8, h9⟩ := h
    cases h9
    refine ⟨?_, rfl, rfl⟩
    simp only [evalUI, uoB_same c h0, ((uoU_same l h1).noReduce h6).1, ((uoU_same r h2).noReduce h7).1]
end

end
end Zok.Uo
