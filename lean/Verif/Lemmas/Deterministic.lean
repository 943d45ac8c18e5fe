import Verif.Spec.OracleFree
import Verif.Lemmas.CmpExpr

/-
Functions without oracles are deterministic.
-/

set_option linter.unusedSectionVars false

namespace Zok
variable {p : ℕ} {Z : Type} [Fact p.Prime]
variable {O O' : Oracle p Z}

theorem map_bool_inj {a b : List Bool} (h : a.map (ZVal.bool (p := p)) = b.map .bool) : a = b :=
  List.map_injective_iff.2 (fun _ _ h => by cases h; rfl) h

theorem conjunct_ok {env : ZEnv p} {c e : BExpr (ZMod p)} (h : Conjunct c e) {b : Bool} (he : evalB env e = .ok b) :
    ∃ b', evalB env c = .ok b' := by
  induction h generalizing b with
  | self => exact ⟨b, he⟩
  | left _ ih =>
    rw [evalB] at he
    obtain ⟨x, h1, _⟩ := exc_bind_ok he
    exact ih h1
  | right _ ih =>
    rw [evalB] at he
    obtain ⟨x, _, h2⟩ := exc_bind_ok he
    obtain ⟨y, h3, _⟩ := exc_bind_ok h2
    exact ih h3

theorem EmbedRes.detOracle {embed : Embed} {g : List ℕ} {vs rs : List (ZVal p)} {r : Except Fault (List (ZVal p))}
    (h : EmbedRes O embed g vs (.ok rs)) (hu : embed ≠ .unpack) (h' : EmbedRes O' embed g vs r) : r = .ok rs := by
  generalize hr : (Except.ok rs : Except Fault _) = x at h
  cases h with
  | castBool _ b =>
    cases hr
    generalize hv : [ZVal.field (boolF b : ZMod p)] = v at h'
    cases h' with
    | castBool _ b' =>
      have hb : (boolF b : ZMod p) = boolF b' := by
        simp only [List.cons.injEq, ZVal.field.injEq, and_true] at hv; exact hv
      rw [boolF_inj hb]
    | castFault _ x h1 h2 =>
      simp only [List.cons.injEq, ZVal.field.injEq, and_true] at hv
      subst hv
      cases b
      · exact absurd rfl h1
      · exact absurd rfl h2
  | castFault _ x h1 h2 => cases hr
  | toBits _ w n =>
    cases hr
    cases h'
    rfl
  | fromBits _ bl =>
    cases hr
    generalize hv : bl.map (ZVal.bool (p := p)) = v at h'
    generalize hn : bl.length = n at h'
    cases h' with
    | fromBits _ bl' => rw [map_bool_inj hv]
  | bitArrayLe al bl hl =>
    cases hr
    generalize hv : al.map (ZVal.bool (p := p)) ++ bl.map .bool = v at h'
    generalize hn : [al.length] = n at h'
    cases h' with
    | bitArrayLe al' bl' hl' =>
      have hn' : al.length = al'.length := by simpa using hn
      obtain ⟨e1, e2⟩ := List.append_inj hv (by simpa using hn')
      rw [map_bool_inj e1, map_bool_inj e2]
  | unpack n x bl _ => exact absurd rfl hu

mutual
theorem Exec.detOracle {s : ZStmt (ZMod p) Z} (hs : s.OracleFree) {σ σ' : ZState p} {r : Except Fault (ZState p)}
    (h : Exec O σ s (.ok σ')) (h' : Exec O' σ s r) : r = .ok σ' := by
  cases s with
  | ret es =>
    cases h with
    | ret h =>
      cases h' with
      | ret h' => rw [h] at h'; cases h'; rfl
      | retFault h' => rw [h] at h'; cases h'
  | definition x e =>
    cases h with
    | definition h =>
      cases h' with
      | definition h' => rw [h] at h'; cases h'; rfl
      | definitionFault h' => rw [h] at h'; cases h'
  | ifElse c t e =>
    cases h with
    | ifElse h1 h2 h3 =>
      cases h' with
      | ifElse g1 g2 g3 =>
        have := ExecL.detOracle hs.1 h2 g2
        cases this
        exact ExecL.detOracle hs.2 h3 g3
      | ifFault g => rw [h1] at g; cases g
      | thenFault g1 g2 => have := ExecL.detOracle hs.1 h2 g2; cases this
  | assertion e err =>
    cases h with
    | assertOk h =>
      cases h' with
      | assertOk h' => rfl
      | assertFailed h' => rw [h] at h'; cases h'
      | assertFault h1 h2 =>
        obtain ⟨b, hb⟩ := conjunct_ok h1 h
        rw [hb] at h2; cases h2
  | multiDef xs embed g args =>
    cases h with
    | multiDef h1 h2 h3 =>
      cases h' with
      | multiDef g1 g2 g3 =>
        rw [h1] at g1; cases g1
        have := h2.detOracle hs g2
        cases this
        rfl
      | embedFault g1 g2 =>
        rw [h1] at g1; cases g1
        have := h2.detOracle hs g2
        cases this
      | argsFault g => rw [h1] at g; cases g
  | log es =>
    cases h with
    | log h =>
      cases h' with
      | log h' => rfl
      | logFault h' => rw [h] at h'; cases h'
  | assembly ss => exact hs.elim
theorem ExecL.detOracle {ss : List (ZStmt (ZMod p) Z)} (hs : ZStmt.OracleFreeL ss) {σ σ' : ZState p}
    {r : Except Fault (ZState p)} (h : ExecL O σ ss (.ok σ')) (h' : ExecL O' σ ss r) : r = .ok σ' := by
  cases ss with
  | nil => cases h; cases h'; rfl
  | cons s ss =>
    cases h with
    | cons h1 h2 =>
      cases h' with
      | fault g => have := Exec.detOracle hs.1 h1 g; cases this
      | cons g1 g2 =>
        have := Exec.detOracle hs.1 h1 g1
        cases this
        exact ExecL.detOracle hs.2 h2 g2
end

/-- A function without oracles has at most one result, whatever the prover does. -/
theorem Returns.unique {f : ZFun (ZMod p) Z} (hf : ZStmt.OracleFreeL f.body) {ins o o' : List (ZMod p)}
    (h : Returns O f ins o) (h' : Returns O' f ins o') : o = o' := by
  obtain ⟨vs, σ, rs, h1, h2, h3, rfl⟩ := h
  obtain ⟨vs', σ', rs', g1, g2, g3, rfl⟩ := h'
  rw [h1] at g1
  cases g1
  cases ExecL.detOracle hf h2 g2
  rw [h3] at g3
  cases g3
  rfl

/-- If it returns, it cannot fail. -/
theorem Returns.not_faults {f : ZFun (ZMod p) Z} (hf : ZStmt.OracleFreeL f.body) {ins o : List (ZMod p)}
    (h : Returns O f ins o) {e : Fault} : ¬ Faults O' f ins e := by
  obtain ⟨vs, σ, rs, h1, h2, h3, rfl⟩ := h
  rintro ⟨vs', g1, g2⟩
  rw [h1] at g1
  cases g1
  have := ExecL.detOracle hf h2 g2
  cases this

theorem EmbedRes.anyOracle {embed : Embed} {g : List ℕ} {vs : List (ZVal p)} {r : Except Fault (List (ZVal p))}
    (h : EmbedRes O embed g vs r) (hu : embed ≠ .unpack) : EmbedRes O' embed g vs r := by
  cases h with
  | castBool => exact .castBool _ _
  | castFault _ _ h1 h2 => exact .castFault _ _ h1 h2
  | toBits => exact .toBits _ _ _
  | fromBits => exact .fromBits _ _
  | bitArrayLe _ _ h => exact .bitArrayLe _ _ h
  | unpack => exact absurd rfl hu

mutual
theorem Exec.anyOracle {s : ZStmt (ZMod p) Z} (hs : s.OracleFree) {σ : ZState p} {r : Except Fault (ZState p)}
    (h : Exec O σ s r) : Exec O' σ s r := by
  cases s with
  | ret es =>
    cases h with
    | ret h => exact .ret h
    | retFault h => exact .retFault h
  | definition x e =>
    cases h with
    | definition h => exact .definition h
    | definitionFault h => exact .definitionFault h
  | ifElse c t e =>
    cases h with
    | ifElse h1 h2 h3 => exact .ifElse h1 (ExecL.anyOracle hs.1 h2) (ExecL.anyOracle hs.2 h3)
    | ifFault h => exact .ifFault h
    | thenFault h1 h2 => exact .thenFault h1 (ExecL.anyOracle hs.1 h2)
  | assertion e err =>
    cases h with
    | assertOk h => exact .assertOk h
    | assertFailed h => exact .assertFailed h
    | assertFault h1 h2 => exact .assertFault h1 h2
  | multiDef xs embed g args =>
    cases h with
    | multiDef h1 h2 h3 => exact .multiDef h1 (h2.anyOracle hs) h3
    | embedFault h1 h2 => exact .embedFault h1 (h2.anyOracle hs)
    | argsFault h => exact .argsFault h
  | log es =>
    cases h with
    | log h => exact .log h
    | logFault h => exact .logFault h
  | assembly ss => exact hs.elim
theorem ExecL.anyOracle {ss : List (ZStmt (ZMod p) Z)} (hs : ZStmt.OracleFreeL ss) {σ : ZState p}
    {r : Except Fault (ZState p)} (h : ExecL O σ ss r) : ExecL O' σ ss r := by
  cases ss with
  | nil => cases h; exact .nil
  | cons s ss =>
    cases h with
    | fault h => exact .fault (Exec.anyOracle hs.1 h)
    | cons h1 h2 => exact .cons (Exec.anyOracle hs.1 h1) (ExecL.anyOracle hs.2 h2)
end

/-- Without oracles, the oracle does not matter. -/
theorem Returns.anyOracle {f : ZFun (ZMod p) Z} (hf : ZStmt.OracleFreeL f.body) {ins o : List (ZMod p)}
    (h : Returns O f ins o) : Returns O' f ins o := by
  obtain ⟨vs, σ, rs, h1, h2, h3, rfl⟩ := h
  exact ⟨vs, σ, rs, h1, ExecL.anyOracle hf h2, h3, rfl⟩

end Zok
