import Verif.Model.Pipeline
import Verif.Props.DeadCode
import Verif.Props.UintOpt
import Verif.Props.TypeSound
import Verif.Lemmas.DceExtract
import Verif.Lemmas.DcePres
import Verif.Lemmas.UintOptShape
import Verif.Lemmas.PanicOutside
import Verif.Lemmas.PanicPres
import Verif.Lemmas.NoCast

/-
The passes over ZIR on programs without assembly blocks: what they do to hints does not matter.
-/

set_option linter.unusedSectionVars false

namespace Zok.Pl
open Px Dce Uo
variable {p : ℕ} {Z : Type} [Fact p.Prime]

mutual
theorem exStmt_hints (hx hx' : Z → Buf p Z → Z) : ∀ s : ZStmt (ZMod p) Z, s.NoAsm → exStmt hx s = exStmt hx' s
  | .ret _, _ | .definition _ _, _ | .assertion _ _, _ | .multiDef _ _ _ _, _ | .log _, _ => by simp only [exStmt]
  | .ifElse c t e, h => by
    simp only [ZStmt.NoAsm] at h
    simp only [exStmt, exStmts_hints hx hx' t h.1, exStmts_hints hx hx' e h.2]
  | .assembly _, h => absurd h (by simp [ZStmt.NoAsm])
theorem exStmts_hints (hx hx' : Z → Buf p Z → Z) : ∀ ss : List (ZStmt (ZMod p) Z), ZStmt.NoAsmL ss → exStmts hx ss = exStmts hx' ss
  | [], _ => by simp only [exStmts]
  | s :: ss, h => by
    simp only [ZStmt.NoAsmL] at h
    simp only [exStmts, exStmt_hints hx hx' s h.1, exStmts_hints hx hx' ss h.2]
end

mutual
theorem dceStmt_hints (hd hd' : Z → Used → Z × Used) : ∀ (s : ZStmt (ZMod p) Z) (u : Used), s.NoAsm → dceStmt hd s u = dceStmt hd' s u
  | .ret _, _, _ | .definition _ _, _, _ | .assertion _ _, _, _ | .multiDef _ _ _ _, _, _ | .log _, _, _ => by simp only [dceStmt]
  | .ifElse c t e, u, h => by
    simp only [ZStmt.NoAsm] at h
    simp only [dceStmt, dceStmts_hints hd hd' t _ h.1, dceStmts_hints hd hd' e _ h.2]
  | .assembly _, _, h => absurd h (by simp [ZStmt.NoAsm])
theorem dceStmts_hints (hd hd' : Z → Used → Z × Used) : ∀ (ss : List (ZStmt (ZMod p) Z)) (u : Used), ZStmt.NoAsmL ss →
    dceStmts hd ss u = dceStmts hd' ss u
  | [], _, _ => by simp only [dceStmts]
  | s :: ss, u, h => by
    simp only [ZStmt.NoAsmL] at h
    simp only [dceStmts, dceStmts_hints hd hd' ss _ h.2, dceStmt_hints hd hd' s _ h.1]
end

mutual
theorem uoStmt_hints (hf hf' : Z → Ids p → Option (Z × Ids p)) : ∀ (s : ZStmt (ZMod p) Z) (ids : Ids p), s.NoAsm → uoStmt hf ids s = uoStmt hf' ids s
  | .ret _, _, _ | .definition _ _, _, _ | .assertion _ _, _, _ | .multiDef _ _ _ _, _, _ | .log _, _, _ => by simp only [uoStmt]
  | .ifElse c t e, ids, h => by
    simp only [ZStmt.NoAsm] at h
    simp only [uoStmt, uoStmts_hints hf hf' t _ h.1, uoStmts_hints hf hf' e _ h.2]
  | .assembly _, _, h => absurd h (by simp [ZStmt.NoAsm])
theorem uoStmts_hints (hf hf' : Z → Ids p → Option (Z × Ids p)) : ∀ (ss : List (ZStmt (ZMod p) Z)) (ids : Ids p), ZStmt.NoAsmL ss →
    uoStmts hf ids ss = uoStmts hf' ids ss
  | [], _, _ => by simp only [uoStmts]
  | s :: ss, ids, h => by
    simp only [ZStmt.NoAsmL] at h
    simp only [uoStmts, uoStmts_hints hf hf' ss _ h.2, uoStmt_hints hf hf' s _ h.1]
end

mutual
theorem atrStmt_noAsm : ∀ (s : ZStmt (ZMod p) Z), s.NoAsm → Atr.stmt s = .ok s
  | .ret _, _ | .definition _ _, _ | .assertion _ _, _ | .multiDef _ _ _ _, _ | .log _, _ => by simp only [Atr.stmt]
  | .ifElse c t e, h => by
    simp only [ZStmt.NoAsm] at h
    simp only [Atr.stmt, atrStmts_noAsm t h.1, atrStmts_noAsm e h.2]; rfl
  | .assembly _, h => absurd h (by simp [ZStmt.NoAsm])
theorem atrStmts_noAsm : ∀ (ss : List (ZStmt (ZMod p) Z)), ZStmt.NoAsmL ss → Atr.stmts ss = .ok ss
  | [], _ => by simp only [Atr.stmts]
  | s :: ss, h => by
    simp only [ZStmt.NoAsmL] at h
    simp only [Atr.stmts, atrStmt_noAsm s h.1, atrStmts_noAsm ss h.2]; rfl
end

theorem transform_noAsm {f : ZFun (ZMod p) Z} (h : ZStmt.NoAsmL f.body) : transformAssembly f = .ok f := by
  simp only [transformAssembly, atrStmts_noAsm f.body h]
  rfl

mutual
theorem noAsm_of_free : ∀ (s : ZStmt (ZMod p) Z), s.OracleFree → s.NoAsm
  | .ret _, _ | .definition _ _, _ | .assertion _ _, _ | .multiDef _ _ _ _, _ | .log _, _ => by simp only [ZStmt.NoAsm]
  | .ifElse c t e, h => by
    simp only [ZStmt.OracleFree] at h
    exact ⟨noAsmL_of_free t h.1, noAsmL_of_free e h.2⟩
  | .assembly _, h => absurd h (by simp [ZStmt.OracleFree])
theorem noAsmL_of_free : ∀ (ss : List (ZStmt (ZMod p) Z)), ZStmt.OracleFreeL ss → ZStmt.NoAsmL ss
  | [], _ => by simp only [ZStmt.NoAsmL]
  | s :: ss, h => by
    simp only [ZStmt.OracleFreeL] at h
    exact ⟨noAsm_of_free s h.1, noAsmL_of_free ss h.2⟩
end

mutual
theorem argsUsed_noAsm (hd : Z → Used → Z × Used) : ∀ (s : ZStmt (ZMod p) Z), s.NoAsm → s.ArgsUsed hd
  | .ret _, _ | .definition _ _, _ | .assertion _ _, _ | .multiDef _ _ _ _, _ | .log _, _ => by simp only [ZStmt.ArgsUsed]
  | .ifElse c t e, h => by
    simp only [ZStmt.NoAsm] at h
    exact ⟨argsUsedL_noAsm hd t h.1, argsUsedL_noAsm hd e h.2⟩
  | .assembly _, h => absurd h (by simp [ZStmt.NoAsm])
theorem argsUsedL_noAsm (hd : Z → Used → Z × Used) : ∀ (ss : List (ZStmt (ZMod p) Z)), ZStmt.NoAsmL ss → ZStmt.ArgsUsedL hd ss
  | [], _ => by simp only [ZStmt.ArgsUsedL]
  | s :: ss, h => by
    simp only [ZStmt.NoAsmL] at h
    exact ⟨argsUsed_noAsm hd s h.1, argsUsedL_noAsm hd ss h.2⟩
end

mutual
theorem callsOk_wt {O : Oracle p Z} : ∀ (s : ZStmt (ZMod p) Z) {Γ Γ' : TCtx}, s.OracleFree → WtStmt Γ s Γ' → s.CallsOk O
  | .ret _, _, _, _, _ | .definition _ _, _, _, _, _ | .assertion _ _, _, _, _, _ | .log _, _, _, _, _ => by simp only [ZStmt.CallsOk]
  | .multiDef _ _ _ _, _, _, hO, .multiDef _ h2 h3 => by
    simp only [ZStmt.OracleFree] at hO
    exact Ts.callOk (Or.inl hO) h2 h3
  | .ifElse c t e, _, _, h, .ifElse _ h2 h3 => by
    simp only [ZStmt.OracleFree] at h
    exact ⟨callsOkL_wt t h.1 h2, callsOkL_wt e h.2 h3⟩
  | .assembly _, _, _, h, _ => absurd h (by simp [ZStmt.OracleFree])
theorem callsOkL_wt {O : Oracle p Z} : ∀ (ss : List (ZStmt (ZMod p) Z)) {Γ Γ' : TCtx}, ZStmt.OracleFreeL ss → WtStmts Γ ss Γ' → ZStmt.CallsOkL O ss
  | [], _, _, _, _ => by simp only [ZStmt.CallsOkL]
  | s :: ss, _, _, h, .cons h1 h2 => by
    simp only [ZStmt.OracleFreeL] at h
    exact ⟨callsOk_wt s h.1 h1, callsOkL_wt ss h.2 h2⟩
end

end Zok.Pl
