import Verif.Lemmas.UintOptExec
import Verif.Lemmas.DcePres

/-
The range analysis keeps the shape of statements.
-/

set_option linter.unusedSectionVars false
set_option linter.unusedSimpArgs false
set_option linter.unusedVariables false

namespace Zok.Uo
variable {p : ℕ} {Z : Type} [Fact p.Prime] {hf : Z → Ids p → Option (Z × Ids p)}

/-- A property of statements which does not depend on the expressions in them. -/
structure ShapeOnly (Q : ZStmt (ZMod p) Z → Prop) (QL : List (ZStmt (ZMod p) Z) → Prop) : Prop where
  list : ∀ ss, QL ss ↔ ∀ s ∈ ss, Q s
  ret : ∀ es es', Q (.ret es) → Q (.ret es')
  definition : ∀ x e e', Q (.definition x e) → Q (.definition x e')
  ifElse : ∀ c t e, Q (.ifElse c t e) ↔ QL t ∧ QL e
  assertion : ∀ e e' err, Q (.assertion e err) → Q (.assertion e' err)
  multiDef : ∀ xs embed g args args', Q (.multiDef xs embed g args) → Q (.multiDef xs embed g args')
  log : ∀ es es', Q (.log es) → Q (.log es')
  assembly : ∀ ss ss', Q (.assembly ss) → Q (.assembly ss')

variable {Q : ZStmt (ZMod p) Z → Prop} {QL : List (ZStmt (ZMod p) Z) → Prop}

mutual
theorem shapeStmt (hQ : ShapeOnly Q QL) : ∀ (s : ZStmt (ZMod p) Z) {s' : ZStmt (ZMod p) Z} {ids ids' : Ids p},
    uoStmt hf ids s = some (s', ids') → Q s → Q s'
  | .ret es, s', ids, ids', h, hq => by
    simp only [uoStmt, Option.bind_eq_bind, Option.bind_eq_some_iff, Option.some.injEq] at h
    obtain ⟨es', h1, h3⟩ := h
    cases h3
    exact hQ.ret _ _ hq
  | .definition x e, s', ids, ids', h, hq => by
    simp only [uoStmt, Option.bind_eq_bind, Option.bind_eq_some_iff] at h
    obtain ⟨e', h1, h3⟩ := h
    split at h3
    · simp only [Option.bind_eq_some_iff, Option.some.injEq] at h3
      obtain ⟨i, _, m, _, h3⟩ := h3
      cases h3
      exact hQ.definition _ _ _ hq
    · cases h3
      exact hQ.definition _ _ _ hq
  | .ifElse c t e, s', ids, ids', h, hq => by
    simp only [uoStmt, Option.bind_eq_bind, Option.bind_eq_some_iff, Option.some.injEq] at h
    obtain ⟨c', h1, ⟨t', ids1⟩, h2, ⟨e', ids2⟩, h3, h4⟩ := h
    cases h4
    obtain ⟨q1, q2⟩ := (hQ.ifElse _ _ _).1 hq
    exact (hQ.ifElse _ _ _).2 ⟨shapeStmts hQ t h2 q1, shapeStmts hQ e h3 q2⟩
  | .assertion e err, s', ids, ids', h, hq => by
    simp only [uoStmt, Option.bind_eq_bind, Option.bind_eq_some_iff, Option.some.injEq] at h
    obtain ⟨es', h1, h3⟩ := h
    cases h3
    exact hQ.assertion _ _ _ hq
  | .multiDef xs embed g args, s', ids, ids', h, hq => by
    simp only [uoStmt, Option.bind_eq_bind, Option.bind_eq_some_iff, Option.some.injEq] at h
    obtain ⟨i1, h1, a, h2, h3⟩ := h
    cases h3
    exact hQ.multiDef _ _ _ _ _ hq
  | .log es, s', ids, ids', h, hq => by
    simp only [uoStmt, Option.bind_eq_bind, Option.bind_eq_some_iff, Option.some.injEq] at h
    obtain ⟨es', h1, h3⟩ := h
    cases h3
    exact hQ.log _ _ hq
  | .assembly ss, s', ids, ids', h, hq => by
    simp only [uoStmt, Option.bind_eq_bind, Option.bind_eq_some_iff, Option.some.injEq] at h
    obtain ⟨⟨a, i⟩, h1, h3⟩ := h
    cases h3
    exact hQ.assembly _ _ hq
theorem shapeStmts (hQ : ShapeOnly Q QL) : ∀ (ss : List (ZStmt (ZMod p) Z)) {ss' : List (ZStmt (ZMod p) Z)} {ids ids' : Ids p},
    uoStmts hf ids ss = some (ss', ids') → QL ss → QL ss'
  | [], ss', ids, ids', h, hq => by cases h; exact hq
  | s :: ss, ss', ids, ids', h, hq => by
    simp only [uoStmts, Option.bind_eq_bind, Option.bind_eq_some_iff, Option.some.injEq] at h
    obtain ⟨⟨s', ids1⟩, h1, ⟨ss', ids2⟩, h2, h3⟩ := h
    cases h3
    have q1 := shapeStmt hQ s h1 ((hQ.list _).1 hq s (by simp))
    have q2 := shapeStmts hQ ss h2 ((hQ.list _).2 fun t ht => (hQ.list _).1 hq t (by simp [ht]))
    rw [hQ.list] at q2 ⊢
    intro t ht
    rcases List.mem_cons.1 ht with rfl | ht
    · exact q1
    · exact q2 t ht
end

theorem shape_noAsm : ShapeOnly (ZStmt.NoAsm (p := p) (Z := Z)) ZStmt.NoAsmL where
  list := (Dce.hereditary_noAsm (hd := fun z u => (z, u))).list
  ret _ _ h := h
  definition _ _ _ h := h
  ifElse c t e := Iff.rfl
  assertion _ _ _ h := h
  multiDef _ _ _ _ _ h := h
  log _ _ h := h
  assembly _ _ h := h

theorem shape_oracleFree : ShapeOnly (ZStmt.OracleFree (F := ZMod p) (Z := Z)) ZStmt.OracleFreeL where
  list := (Dce.hereditary_oracleFree (hd := fun z u => (z, u))).list
  ret _ _ h := h
  definition _ _ _ h := h
  ifElse c t e := Iff.rfl
  assertion _ _ _ h := h
  multiDef _ _ _ _ _ h := h
  log _ _ h := h
  assembly _ _ h := h

theorem shape_noCast : ShapeOnly (ZStmt.NoCast (F := ZMod p) (Z := Z)) ZStmt.NoCastL where
  list := (Dce.hereditary_noCast (hd := fun z u => (z, u))).list
  ret _ _ h := h
  definition _ _ _ h := h
  ifElse c t e := Iff.rfl
  assertion _ _ _ h := h
  multiDef _ _ _ _ _ h := h
  log _ _ h := h
  assembly _ _ h := h

theorem shape_inner : ShapeOnly (ZStmt.Inner (F := ZMod p) (Z := Z)) ZStmt.InnerL where
  list := (Dce.hereditary_inner (hd := fun z u => (z, u))).list
  ret _ _ h := h
  definition _ _ _ h := h
  ifElse c t e := Iff.rfl
  assertion _ _ _ h := h
  multiDef _ _ _ _ _ h := h
  log _ _ h := h
  assembly _ _ h := h

theorem uo_append {a b : List (ZStmt (ZMod p) Z)} {r : List (ZStmt (ZMod p) Z)} {ids ids' : Ids p} (h : uoStmts hf ids (a ++ b) = some (r, ids')) :
    ∃ a' ids1 b', uoStmts hf ids a = some (a', ids1) ∧ uoStmts hf ids1 b = some (b', ids') ∧ r = a' ++ b' := by
  induction a generalizing r ids with
  | nil => exact ⟨[], ids, r, rfl, h, rfl⟩
  | cons s ss ih =>
    simp only [List.cons_append, uoStmts, Option.bind_eq_bind, Option.bind_eq_some_iff, Option.some.injEq] at h
    obtain ⟨⟨s', ids1⟩, h1, ⟨ss', ids2⟩, h2, h3⟩ := h
    cases h3
    obtain ⟨a', i, b', h4, h5, h6⟩ := ih h2
    refine ⟨s' :: a', i, b', ?_, h5, by simp only [h6]; rfl⟩
    simp only [uoStmts, Option.bind_eq_bind, h1, h4, Option.bind_some]

theorem uintOptimize_singleReturn {f g : ZFun (ZMod p) Z} (h : uintOptimize hf f = some g) (hs : SingleReturn f) : SingleReturn g := by
  obtain ⟨ss, es, h1, h2⟩ := hs
  simp only [uintOptimize, Option.bind_eq_bind, Option.bind_eq_some_iff, Option.some.injEq] at h
  obtain ⟨⟨b, ids'⟩, h3, rfl⟩ := h
  rw [h1] at h3
  obtain ⟨a', i, b', h4, h5, h6⟩ := uo_append h3
  simp only [uoStmts, uoStmt, Option.bind_eq_bind, Option.bind_eq_some_iff, Option.some.injEq] at h5
  obtain ⟨⟨s', ids1⟩, ⟨es', _, h7⟩, ⟨ss', ids2⟩, h8, h9⟩ := h5
  cases h7; cases h8; cases h9
  exact ⟨a', es', h6, shapeStmts shape_inner ss h4 h2⟩

theorem uintOptimize_shape {f g : ZFun (ZMod p) Z} (h : uintOptimize hf f = some g) (hQ : ShapeOnly Q QL) (hq : QL f.body) : QL g.body := by
  simp only [uintOptimize, Option.bind_eq_bind, Option.bind_eq_some_iff, Option.some.injEq] at h
  obtain ⟨⟨b, ids'⟩, h3, rfl⟩ := h
  exact shapeStmts hQ _ h3 hq

end Zok.Uo
