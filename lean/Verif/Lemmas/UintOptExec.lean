import Verif.Lemmas.UintOpt

/-
Lemmas on the range analysis: annotations do not change the executions of statements.
-/

set_option linter.unusedSectionVars false
set_option linter.unusedSimpArgs false

namespace Zok.Uo
variable {p : ℕ} {Z : Type} [Fact p.Prime] {ids : Ids p} {O : Oracle p Z}

theorem uoZ_same {env : ZEnv p} {e e' : ZExpr (ZMod p)} (h : uoZ ids e = some e') : evalZ env e' = evalZ env e := by
  cases e with
  | field e =>
    simp only [uoZ, Option.map_eq_some_iff] at h
    obtain ⟨a, h1, rfl⟩ := h
    simp only [evalZ, (uoF_same (env := env) e h1).1]
  | bool e =>
    simp only [uoZ, Option.map_eq_some_iff] at h
    obtain ⟨a, h1, rfl⟩ := h
    simp only [evalZ, uoB_same (env := env) e h1]
  | uint e =>
    simp only [uoZ, Option.map_eq_some_iff] at h
    obtain ⟨a, h1, rfl⟩ := h
    have := uoU_same (env := env) e h1
    simp only [evalZ, this.1, this.2.1]

theorem uoZReduced_same {env : ZEnv p} {e e' : ZExpr (ZMod p)} (h : uoZReduced ids e = some e') :
    evalZ env e' = evalZ env e := by
  cases e with
  | field e => exact uoZ_same h
  | bool e => exact uoZ_same h
  | uint e =>
    simp only [uoZReduced, Option.bind_eq_bind, Option.bind_eq_some_iff, Option.some.injEq] at h
    obtain ⟨a, h1, b, h2, rfl⟩ := h
    have := (uoU_same (env := env) e h1).reduce h2
    simp only [evalZ, this.1, this.2.1]

theorem mapAll_cons {α β : Type} {f : α → Option β} {a : α} {as : List α} {bs : List β}
    (h : mapAll f (a :: as) = some bs) : ∃ b bs', f a = some b ∧ mapAll f as = some bs' ∧ bs = b :: bs' := by
  simp only [mapAll, Option.bind_eq_bind, Option.bind_eq_some_iff, Option.some.injEq] at h
  obtain ⟨b, h1, bs', h2, rfl⟩ := h
  exact ⟨b, bs', h1, h2, rfl⟩

theorem mapAll_length {α β : Type} {f : α → Option β} {as : List α} {bs : List β}
    (h : mapAll f as = some bs) : bs.length = as.length := by
  induction as generalizing bs with
  | nil => cases h; rfl
  | cons a as ih =>
    obtain ⟨b, bs', h1, h2, rfl⟩ := mapAll_cons h
    simp [ih h2]

theorem mapAll_same {env : ZEnv p} {f : ZExpr (ZMod p) → Option (ZExpr (ZMod p))}
    (hf : ∀ e e', f e = some e' → evalZ env e' = evalZ env e) {es es' : List (ZExpr (ZMod p))}
    (h : mapAll f es = some es') : evalZs env es' = evalZs env es := by
  induction es generalizing es' with
  | nil => cases h; rfl
  | cons a as ih =>
    obtain ⟨b, bs', h1, h2, rfl⟩ := mapAll_cons h
    simp only [evalZs, hf _ _ h1, ih h2]

theorem evalZs_append (env : ZEnv p) (as bs : List (ZExpr (ZMod p))) :
    evalZs env (as ++ bs) = (do
      let x ← evalZs env as
      let y ← evalZs env bs
      .ok (x ++ y)) := by
  induction as with
  | nil =>
    show evalZs env bs = (evalZs env bs >>= fun y => .ok ([] ++ y))
    cases evalZs env bs <;> rfl
  | cons a as ih =>
    simp only [List.cons_append, evalZs, ih]
    cases evalZ env a with
    | error f => rfl
    | ok v =>
      cases evalZs env as with
      | error f => rfl
      | ok v =>
        cases evalZs env bs <;> rfl

theorem mapAll_flatten_same {env : ZEnv p} {f : ZExpr (ZMod p) → Option (ZExpr (ZMod p))}
    (hf : ∀ e e', f e = some e' → evalZ env e' = evalZ env e) {es es' : List (List (ZExpr (ZMod p)))}
    (h : mapAll (mapAll f) es = some es') : evalZs env es'.flatten = evalZs env es.flatten := by
  induction es generalizing es' with
  | nil => cases h; rfl
  | cons a as ih =>
    obtain ⟨b, bs', h1, h2, rfl⟩ := mapAll_cons h
    simp only [List.flatten_cons, evalZs_append, mapAll_same hf h1, ih h2]

theorem uoArgs_same {env : ZEnv p} {embed : Embed} {es es' : List (ZExpr (ZMod p))} (h : uoArgs ids embed es = some es') :
    evalZs env es' = evalZs env es := by
  cases embed
  case uToBits => exact mapAll_same (fun _ _ => uoZReduced_same) h
  all_goals exact mapAll_same (fun _ _ => uoZ_same) h

/-- Conjuncts correspond. -/
theorem uoB_conjunct {env : ZEnv p} {e e' c : BExpr (ZMod p)} (h : uoB ids e = some e') (hc : Conjunct c e) :
    ∃ c', Conjunct c' e' ∧ evalB env c' = evalB env c := by
  induction hc generalizing e' with
  | self => exact ⟨e', .self _, uoB_same _ h⟩
  | left hc ih =>
    simp only [uoB, Option.bind_eq_bind, Option.bind_eq_some_iff, Option.some.injEq] at h
    obtain ⟨l', h1, r', h2, rfl⟩ := h
    obtain ⟨c', h3, h4⟩ := ih h1
    exact ⟨c', .left h3, h4⟩
  | right hc ih =>
    simp only [uoB, Option.bind_eq_bind, Option.bind_eq_some_iff, Option.some.injEq] at h
    obtain ⟨l', h1, r', h2, rfl⟩ := h
    obtain ⟨c', h3, h4⟩ := ih h2
    exact ⟨c', .right h3, h4⟩

theorem uoB_conjunct_back {env : ZEnv p} : ∀ (e : BExpr (ZMod p)) {e' c : BExpr (ZMod p)}, uoB ids e = some e' →
    Conjunct c e' → ∃ c', Conjunct c' e ∧ evalB env c' = evalB env c ∧ uoB ids c' = some c := by
  intro e e' c h hc
  induction hc generalizing e with
  | self => exact ⟨e, .self _, (uoB_same e h).symm, h⟩
  | left hc ih =>
    rename_i l r
    cases e with
    | and a b =>
      simp only [uoB, Option.bind_eq_bind, Option.bind_eq_some_iff, Option.some.injEq] at h
      obtain ⟨l', h1, r', h2, h3⟩ := h
      cases h3
      obtain ⟨c', h3, h4⟩ := ih a h1
      exact ⟨c', .left h3, h4⟩
    | _ =>
      exfalso
      simp [uoB, Option.bind_eq_bind, Option.bind_eq_some_iff] at h
  | right hc ih =>
    rename_i l r
    cases e with
    | and a b =>
      simp only [uoB, Option.bind_eq_bind, Option.bind_eq_some_iff, Option.some.injEq] at h
      obtain ⟨l', h1, r', h2, h3⟩ := h
      cases h3
      obtain ⟨c', h3, h4⟩ := ih b h2
      exact ⟨c', .right h3, h4⟩
    | _ =>
      exfalso
      simp [uoB, Option.bind_eq_bind, Option.bind_eq_some_iff] at h

section
variable {hf : Z → Ids p → Option (Z × Ids p)}
  (hO : ∀ z ids z' ids', hf z ids = some (z', ids') → O.hint z' = O.hint z)
include hO

theorem uoAsm_exec {s s' : ZAsm (ZMod p) Z} {ids' : Ids p} (h : uoAsm hf ids s = some (s', ids')) (σ : ZState p)
    (r : Except Fault (ZState p)) : ExecAsm O σ s' r ↔ ExecAsm O σ s r := by
  cases s with
  | assignment xs f args =>
    simp only [uoAsm, Option.bind_eq_bind, Option.bind_eq_some_iff, Option.some.injEq] at h
    obtain ⟨⟨f', ids''⟩, h1, h2⟩ := h
    cases h2
    have e := hO _ _ _ _ h1
    constructor
    · intro h
      cases h with
      | assignment a b c => exact .assignment a (e ▸ b) c
    · intro h
      cases h with
      | assignment a b c => exact .assignment a (e.symm ▸ b) c
  | constraint l r info =>
    simp only [uoAsm, Option.bind_eq_bind, Option.bind_eq_some_iff, Option.some.injEq] at h
    obtain ⟨l', h1, r', h2, h3⟩ := h
    cases h3
    have e1 : evalF σ.env l' = evalF σ.env l := (uoF_same l h1).1
    have e2 : evalF σ.env r' = evalF σ.env r := (uoF_same r h2).1
    constructor
    · intro h
      cases h with
      | ok a b => exact .ok (e1 ▸ a) (e2 ▸ b)
      | failed a b c => exact .failed (e1 ▸ a) (e2 ▸ b) c
      | faultL a => exact .faultL (e1 ▸ a)
      | faultR a b => exact .faultR (e1 ▸ a) (e2 ▸ b)
    · intro h
      cases h with
      | ok a b => exact .ok (e1.symm ▸ a) (e2.symm ▸ b)
      | failed a b c => exact .failed (e1.symm ▸ a) (e2.symm ▸ b) c
      | faultL a => exact .faultL (e1.symm ▸ a)
      | faultR a b => exact .faultR (e1.symm ▸ a) (e2.symm ▸ b)

theorem uoAsms_exec {ss ss' : List (ZAsm (ZMod p) Z)} {ids ids' : Ids p} (h : uoAsms hf ids ss = some (ss', ids'))
    (σ : ZState p) (r : Except Fault (ZState p)) : ExecAsms O σ ss' r ↔ ExecAsms O σ ss r := by
  induction ss generalizing ss' ids ids' σ r with
  | nil => cases h; exact Iff.rfl
  | cons s ss ih =>
    simp only [uoAsms, Option.bind_eq_bind, Option.bind_eq_some_iff, Option.some.injEq] at h
    obtain ⟨⟨s', ids1⟩, h1, ⟨ss', ids2⟩, h2, h3⟩ := h
    cases h3
    constructor
    · intro h
      cases h with
      | fault a => exact .fault ((uoAsm_exec hO h1 _ _).1 a)
      | cons a b => exact .cons ((uoAsm_exec hO h1 _ _).1 a) ((ih h2 _ _).1 b)
    · intro h
      cases h with
      | fault a => exact .fault ((uoAsm_exec hO h1 _ _).2 a)
      | cons a b => exact .cons ((uoAsm_exec hO h1 _ _).2 a) ((ih h2 _ _).2 b)

mutual
theorem uoStmt_exec : ∀ (s : ZStmt (ZMod p) Z) {s' : ZStmt (ZMod p) Z} {ids ids' : Ids p},
    uoStmt hf ids s = some (s', ids') → ∀ (σ : ZState p) (r : Except Fault (ZState p)), Exec O σ s' r ↔ Exec O σ s r
  | .ret es, s', ids, ids', h, σ, r => by
    simp only [uoStmt, Option.bind_eq_bind, Option.bind_eq_some_iff, Option.some.injEq] at h
    obtain ⟨es', h1, h3⟩ := h
    cases h3
    have e := mapAll_same (env := σ.env) (fun _ _ => uoZReduced_same) h1
    constructor
    · intro h
      cases h with
      | ret a => exact .ret (e ▸ a)
      | retFault a => exact .retFault (e ▸ a)
    · intro h
      cases h with
      | ret a => exact .ret (e.symm ▸ a)
      | retFault a => exact .retFault (e.symm ▸ a)
  | .definition x e, s', ids, ids', h, σ, r => by
    have key : ∃ e', s' = .definition x e' ∧ evalZ σ.env e' = evalZ σ.env e := by
      simp only [uoStmt, Option.bind_eq_bind, Option.bind_eq_some_iff] at h
      obtain ⟨e', h1, h3⟩ := h
      have e1 := uoZ_same (env := σ.env) h1
      cases e' with
      | field a => cases h3; exact ⟨_, rfl, e1⟩
      | bool a => cases h3; exact ⟨_, rfl, e1⟩
      | uint a =>
        simp only [Option.bind_eq_some_iff, Option.some.injEq] at h3
        obtain ⟨i, h4, m, h5, h6⟩ := h3
        cases h6
        refine ⟨_, rfl, ?_⟩
        rw [← e1]
        have : SameU σ.env i a := SameU.noReduce ⟨rfl, rfl, rfl, rfl⟩ h4
        simp only [evalZ, this.1, this.2.1]
    obtain ⟨e', rfl, e1⟩ := key
    constructor
    · intro h
      cases h with
      | definition a => exact .definition (e1 ▸ a)
      | definitionFault a => exact .definitionFault (e1 ▸ a)
    · intro h
      cases h with
      | definition a => exact .definition (e1.symm ▸ a)
      | definitionFault a => exact .definitionFault (e1.symm ▸ a)
  | .ifElse c t e, s', ids, ids', h, σ, r => by
    simp only [uoStmt, Option.bind_eq_bind, Option.bind_eq_some_iff, Option.some.injEq] at h
    obtain ⟨c', h1, ⟨t', ids1⟩, h2, ⟨e', ids2⟩, h3, h4⟩ := h
    cases h4
    have e1 : evalB σ.env c' = evalB σ.env c := uoB_same c h1
    have e2 := uoStmts_exec t h2
    have e3 := uoStmts_exec e h3
    constructor
    · intro h
      cases h with
      | ifElse a b d => exact .ifElse (e1 ▸ a) ((e2 _ _).1 b) ((e3 _ _).1 d)
      | ifFault a => exact .ifFault (e1 ▸ a)
      | thenFault a b => exact .thenFault (e1 ▸ a) ((e2 _ _).1 b)
    · intro h
      cases h with
      | ifElse a b d => exact .ifElse (e1.symm ▸ a) ((e2 _ _).2 b) ((e3 _ _).2 d)
      | ifFault a => exact .ifFault (e1.symm ▸ a)
      | thenFault a b => exact .thenFault (e1.symm ▸ a) ((e2 _ _).2 b)
  | .assertion e err, s', ids, ids', h, σ, r => by
    simp only [uoStmt, Option.bind_eq_bind, Option.bind_eq_some_iff, Option.some.injEq] at h
    obtain ⟨e', h1, h4⟩ := h
    cases h4
    have e1 : evalB σ.env e' = evalB σ.env e := uoB_same e h1
    constructor
    · intro h
      cases h with
      | assertOk a => exact .assertOk (e1 ▸ a)
      | assertFailed a => exact .assertFailed (e1 ▸ a)
      | assertFault a b =>
        obtain ⟨c', h2, h3, _⟩ := uoB_conjunct_back (env := σ.env) e h1 a
        exact .assertFault h2 (h3.symm ▸ b)
    · intro h
      cases h with
      | assertOk a => exact .assertOk (e1.symm ▸ a)
      | assertFailed a => exact .assertFailed (e1.symm ▸ a)
      | assertFault a b =>
        obtain ⟨c', h2, h3⟩ := uoB_conjunct (env := σ.env) h1 a
        exact .assertFault h2 (h3.symm ▸ b)
  | .multiDef xs embed g args, s', ids, ids', h, σ, r => by
    simp only [uoStmt, Option.bind_eq_bind, Option.bind_eq_some_iff, Option.some.injEq] at h
    obtain ⟨ids1, h1, args', h2, h4⟩ := h
    cases h4
    have e1 := uoArgs_same (env := σ.env) h2
    constructor
    · intro h
      cases h with
      | multiDef a b c => exact .multiDef (e1 ▸ a) b c
      | embedFault a b => exact .embedFault (e1 ▸ a) b
      | argsFault a => exact .argsFault (e1 ▸ a)
    · intro h
      cases h with
      | multiDef a b c => exact .multiDef (e1.symm ▸ a) b c
      | embedFault a b => exact .embedFault (e1.symm ▸ a) b
      | argsFault a => exact .argsFault (e1.symm ▸ a)
  | .log es, s', ids, ids', h, σ, r => by
    simp only [uoStmt, Option.bind_eq_bind, Option.bind_eq_some_iff, Option.some.injEq] at h
    obtain ⟨es', h1, h3⟩ := h
    cases h3
    have e := mapAll_flatten_same (env := σ.env) (fun _ _ => uoZReduced_same) h1
    constructor
    · intro h
      cases h with
      | log a => exact .log (e ▸ a)
      | logFault a => exact .logFault (e ▸ a)
    · intro h
      cases h with
      | log a => exact .log (e.symm ▸ a)
      | logFault a => exact .logFault (e.symm ▸ a)
  | .assembly ss, s', ids, ids', h, σ, r => by
    simp only [uoStmt, Option.bind_eq_bind, Option.bind_eq_some_iff, Option.some.injEq] at h
    obtain ⟨⟨ss', ids1⟩, h1, h3⟩ := h
    cases h3
    constructor
    · intro h
      cases h with
      | assembly a => exact .assembly ((uoAsms_exec hO h1 _ _).1 a)
    · intro h
      cases h with
      | assembly a => exact .assembly ((uoAsms_exec hO h1 _ _).2 a)
theorem uoStmts_exec : ∀ (ss : List (ZStmt (ZMod p) Z)) {ss' : List (ZStmt (ZMod p) Z)} {ids ids' : Ids p},
    uoStmts hf ids ss = some (ss', ids') →
    ∀ (σ : ZState p) (r : Except Fault (ZState p)), ExecL O σ ss' r ↔ ExecL O σ ss r
  | [], ss', ids, ids', h, σ, r => by cases h; exact Iff.rfl
  | s :: ss, ss', ids, ids', h, σ, r => by
    simp only [uoStmts, Option.bind_eq_bind, Option.bind_eq_some_iff, Option.some.injEq] at h
    obtain ⟨⟨s', ids1⟩, h1, ⟨ss', ids2⟩, h2, h3⟩ := h
    cases h3
    have e1 := uoStmt_exec s h1
    have e2 := uoStmts_exec ss h2
    constructor
    · intro h
      cases h with
      | fault a => exact .fault ((e1 _ _).1 a)
      | cons a b => exact .cons ((e1 _ _).1 a) ((e2 _ _).1 b)
    · intro h
      cases h with
      | fault a => exact .fault ((e1 _ _).2 a)
      | cons a b => exact .cons ((e1 _ _).2 a) ((e2 _ _).2 b)
end

theorem uintOptimize_exec {f g : ZFun (ZMod p) Z} (h : uintOptimize hf f = some g) :
    g.params = f.params ∧ g.returnCount = f.returnCount ∧
    ∀ (σ : ZState p) (r : Except Fault (ZState p)), ExecL O σ g.body r ↔ ExecL O σ f.body r := by
  simp only [uintOptimize, Option.bind_eq_bind, Option.bind_eq_some_iff, Option.some.injEq] at h
  obtain ⟨⟨ss, ids'⟩, h1, rfl⟩ := h
  exact ⟨rfl, rfl, uoStmts_exec hO _ h1⟩

end
end Zok.Uo
