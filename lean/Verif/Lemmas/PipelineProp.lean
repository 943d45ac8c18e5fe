import Verif.Lemmas.PipelineOk
import Verif.Props.Propagator

/-
Propagation of programs without assembly blocks: what it does to hints does not matter.
-/

set_option linter.unusedSectionVars false

namespace Zok.Pl
open Prop'
variable {p : ℕ} {Z : Type} [Fact p.Prime]

/-- No result of a hint, and unpacking as in `O`. -/
def noHints (O : Oracle p Z) : Oracle p Z := ⟨fun _ _ _ => False, O.unpack⟩

/-- Folding of hints which never succeeds. -/
def noFolder (p : ℕ) (Z : Type) : HintFolder p Z := fun _ _ _ => .error .panic

theorem hintOk_none (ar : Z → ℕ) (O : Oracle p Z) : HintOk ar (noFolder p Z) (noHints O) (noHints O) where
  arity _ _ _ _ h := by cases h
  unpack := rfl
  fwd _ _ _ _ _ _ _ _ _ _ h := h.elim
  values _ _ _ _ _ _ _ _ h := by cases h
  residual _ _ _ _ _ _ _ _ _ _ _ h := by cases h

section
variable {O O' : Oracle p Z}

theorem embedRes_congr (hu : O'.unpack = O.unpack) {embed : Embed} {g : List ℕ} {vs : List (ZVal p)} {r : Except Fault (List (ZVal p))}
    (h : EmbedRes O embed g vs r) : EmbedRes O' embed g vs r := by
  cases h with
  | castBool => exact .castBool _ _
  | castFault _ _ h1 h2 => exact .castFault _ _ h1 h2
  | toBits => exact .toBits _ _ _
  | fromBits => exact .fromBits _ _
  | bitArrayLe _ _ h => exact .bitArrayLe _ _ h
  | unpack _ _ _ h => exact .unpack _ _ _ (hu ▸ h)

mutual
theorem exec_congr (hu : O'.unpack = O.unpack) {s : ZStmt (ZMod p) Z} (hs : s.NoAsm) {σ : ZState p} {r : Except Fault (ZState p)}
    (h : Exec O σ s r) : Exec O' σ s r := by
  cases s with
  | ret es =>
    cases h with
    | ret h => exact .ret h
    | retFault h => exact .retFault h
  | definition x e =>
    cases h with
    | definition h => exact .definition h
    | definitionFault h => exact .definitionFault h
  | ifElse c t e =>
    cases h with
    | ifElse h1 h2 h3 => exact .ifElse h1 (execL_congr hu hs.1 h2) (execL_congr hu hs.2 h3)
    | ifFault h => exact .ifFault h
    | thenFault h1 h2 => exact .thenFault h1 (execL_congr hu hs.1 h2)
  | assertion e err =>
    cases h with
    | assertOk h => exact .assertOk h
    | assertFailed h => exact .assertFailed h
    | assertFault h1 h2 => exact .assertFault h1 h2
  | multiDef xs embed g args =>
    cases h with
    | multiDef h1 h2 h3 => exact .multiDef h1 (embedRes_congr hu h2) h3
    | embedFault h1 h2 => exact .embedFault h1 (embedRes_congr hu h2)
    | argsFault h => exact .argsFault h
  | log es =>
    cases h with
    | log h => exact .log h
    | logFault h => exact .logFault h
  | assembly ss => exact hs.elim
theorem execL_congr (hu : O'.unpack = O.unpack) {ss : List (ZStmt (ZMod p) Z)} (hs : ZStmt.NoAsmL ss) {σ : ZState p}
    {r : Except Fault (ZState p)} (h : ExecL O σ ss r) : ExecL O' σ ss r := by
  cases ss with
  | nil => cases h; exact .nil
  | cons s ss =>
    cases h with
    | fault h => exact .fault (exec_congr hu hs.1 h)
    | cons h1 h2 => exact .cons (exec_congr hu hs.1 h1) (execL_congr hu hs.2 h2)
end

theorem returns_congr (hu : O'.unpack = O.unpack) {f : ZFun (ZMod p) Z} (hf : ZStmt.NoAsmL f.body) {ins outs : List (ZMod p)}
    (h : Returns O f ins outs) : Returns O' f ins outs := by
  obtain ⟨vs, σ, rs, h1, h2, h3⟩ := h
  exact ⟨vs, σ, rs, h1, execL_congr hu hf h2, h3⟩

theorem faults_congr (hu : O'.unpack = O.unpack) {f : ZFun (ZMod p) Z} (hf : ZStmt.NoAsmL f.body) {ins : List (ZMod p)} {e : Fault}
    (h : Faults O f ins e) : Faults O' f ins e := by
  obtain ⟨vs, h1, h2⟩ := h
  exact ⟨vs, h1, execL_congr hu hf h2⟩
end

variable {H H' : HintFolder p Z} {err : String → RuntimeError}

mutual
theorem propS_hints : ∀ (s : ZStmt (ZMod p) Z) (c : Consts p), s.NoAsm → propS H err c s = propS H' err c s
  | .ret _, _, _ | .definition _ _, _, _ | .assertion _ _, _, _ | .multiDef _ _ _ _, _, _ | .log _, _, _ => by simp only [propS]
  | .ifElse b t e, c, h => by
    simp only [ZStmt.NoAsm] at h
    have h1 := fun c => propSs_hints t c h.1
    have h2 := fun c => propSs_hints e c h.2
    simp only [propS, h1, h2]
  | .assembly _, _, h => absurd h (by simp [ZStmt.NoAsm])
theorem propSs_hints : ∀ (ss : List (ZStmt (ZMod p) Z)) (c : Consts p), ZStmt.NoAsmL ss → propSs H err c ss = propSs H' err c ss
  | [], _, _ => by simp only [propSs]
  | s :: ss, c, h => by
    simp only [ZStmt.NoAsmL] at h
    have h1 := propS_hints s c h.1
    have h2 := fun c => propSs_hints ss c h.2
    simp only [propSs, h1, h2]
end

theorem propagate_hints {f : ZFun (ZMod p) Z} (hf : ZStmt.NoAsmL f.body) : propagate H err f = propagate H' err f := by
  simp only [propagate, propSs_hints (H := H) (H' := H') f.body _ hf]

/-- **C26** without assembly blocks: nothing is assumed about hints. -/
theorem prop_fwd {f : ZFun (ZMod p) Z} (hf : ZStmt.NoAsmL f.body) {ar : Z → ℕ} (ht : TyFun ar f) {O : Oracle p Z} {ins outs : List (ZMod p)}
    (h : Returns O f ins outs) : ∃ f', propagate H err f = .ok f' ∧ Returns (noHints O) f' ins outs := by
  rw [propagate_hints (H' := noFolder p Z) hf]
  exact C26_function (hintOk_none ar O) err f ht ins outs (returns_congr (O := O) (O' := noHints O) rfl hf h)

theorem prop_back {f f' : ZFun (ZMod p) Z} (hf : ZStmt.NoAsmL f.body) {ar : Z → ℕ} (ht : TyFun ar f) (h : propagate H err f = .ok f')
    (O : Oracle p Z) (ins : List (ZMod p)) :
    (∀ outs, Returns (noHints O) f' ins outs → Returns O f ins outs ∨ ∃ e, Faults O f ins e) ∧
    (∀ e, Faults (noHints O) f' ins e → ∃ e', Faults O f ins e') := by
  rw [propagate_hints (H' := noFolder p Z) hf] at h
  obtain ⟨h1, h2⟩ := C26_function_conv (hintOk_none ar O) err f f' ht h ins
  refine ⟨fun outs hr => ?_, fun e he => ?_⟩
  · rcases h1 outs hr with h3 | ⟨e, h3⟩
    · exact Or.inl (returns_congr (O := noHints O) (O' := O) rfl hf h3)
    · exact Or.inr ⟨e, faults_congr (O := noHints O) (O' := O) rfl hf h3⟩
  · obtain ⟨e', h3⟩ := h2 e he
    exact ⟨e', faults_congr (O := noHints O) (O' := O) rfl hf h3⟩

/-! ### Unpacking -/

theorem closed_wide {hx : Z → Px.Buf p Z → Z} : Px.Closed hx (ZStmt.WideUnpack (p := p) (Z := Z)) ZStmt.WideUnpackL where
  list ss := by
    induction ss with
    | nil => simp [ZStmt.WideUnpackL]
    | cons s ss ih => simp [ZStmt.WideUnpackL, ih]
  ifElse _ _ _ := Iff.rfl
  assertion _ _ _ := trivial
  assembly _ h := h

theorem unpack_total {n : ℕ} (hn : Fld.requiredBits p ≤ n) (v : ZMod p) :
    ∃ bl : List Bool, bl.length = n ∧ (Oracle.any p Z).unpack n v bl := by
  have h1 : v.val < 2 ^ n := lt_trans (ZMod.val_lt v) (lt_of_lt_of_le Fld.lt_two_pow_required (Nat.pow_le_pow_right (by norm_num) hn))
  have hl : (bitsBE n v.val).length = n := by simp
  exact ⟨bitsBE n v.val, hl, hl, by rw [natBE_bitsBE_of_lt h1]; simp⟩

mutual
theorem callsOk_wide : ∀ (s : ZStmt (ZMod p) Z) {Γ Γ' : TCtx}, s.WideUnpack → WtStmt Γ s Γ' → s.CallsOk (Oracle.any p Z)
  | .ret _, _, _, _, _ | .definition _ _, _, _, _, _ | .assertion _ _, _, _, _, _ | .log _, _, _, _, _ => by simp only [ZStmt.CallsOk]
  | .multiDef xs embed g args, _, _, hO, .multiDef _ h2 h3 => by
    simp only [ZStmt.WideUnpack] at hO
    by_cases he : embed = .unpack
    · subst he
      cases h3 with
      | unpack h4 =>
        rename_i n e
        have hl : xs.length = n := by simpa using h2
        subst hl
        exact .unpack (unpack_total (hO rfl))
    · exact Ts.callOk (Or.inl he) h2 h3
  | .ifElse c t e, _, _, h, .ifElse _ h2 h3 => by
    simp only [ZStmt.WideUnpack] at h
    exact ⟨callsOkL_wide t h.1 h2, callsOkL_wide e h.2 h3⟩
  | .assembly _, _, _, _, _ => by simp only [ZStmt.CallsOk]
theorem callsOkL_wide : ∀ (ss : List (ZStmt (ZMod p) Z)) {Γ Γ' : TCtx}, ZStmt.WideUnpackL ss → WtStmts Γ ss Γ' →
    ZStmt.CallsOkL (Oracle.any p Z) ss
  | [], _, _, _, _ => by simp only [ZStmt.CallsOkL]
  | s :: ss, _, _, h, .cons h1 h2 => by
    simp only [ZStmt.WideUnpackL] at h
    exact ⟨callsOk_wide s h.1 h1, callsOkL_wide ss h.2 h2⟩
end

theorem callsOk_extracted {f : ZFun (ZMod p) Z} (hf : Compilable f) (hw : ZStmt.WideUnpackL f.body) :
    ZStmt.CallsOkL (Oracle.any p Z) (extractPanics (keep p Z).extract f).body := by
  obtain ⟨_, _, _, _, _, h⟩ := (Px.extract_wt (hx := (keep p Z).extract) hf.powers hf.typed).body
  exact callsOkL_wide _ (Px.closedStmts closed_wide f.body hf.powers hw) h

theorem callsOk_extracted_free {f : ZFun (ZMod p) Z} (hf : Compilable f) (ho : ZStmt.OracleFreeL f.body) (O : Oracle p Z) :
    ZStmt.CallsOkL O (extractPanics (keep p Z).extract f).body := by
  obtain ⟨_, _, _, _, _, h⟩ := (Px.extract_wt (hx := (keep p Z).extract) hf.powers hf.typed).body
  exact callsOkL_wt _ (Px.closedStmts Px.closed_oracleFree f.body hf.powers ho) h

end Zok.Pl
