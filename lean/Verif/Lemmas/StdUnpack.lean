import Verif.Lemmas.StdPack

/-
`utils/pack` and `utils/casts/field_to_u*`: functions which call `unpack`.
-/

set_option linter.unusedSectionVars false

namespace Zok.Typed.Std
open Abi
variable {p : ℕ} {Z : Type} [Fact p.Prime] {O : Oracle p Z} {P : Program (ZMod p)}

theorem calls_ok {i : Inst (ZMod p)} {vs : List (AVal (ZMod p))} {v : AVal (ZMod p)} : Calls O P i vs (.ok v) ↔ ∃ σ, ExecSs O P (calleeState i vs) i.body (.ok σ) ∧ evalT σ.env i.ret = .ok v := by
  simp [Calls, eq_comm]

theorem exec_call_ok {σ σ' : TState p} {x : TId} {t : CType} {key : ℕ} {gens args : List (TExpr (ZMod p))} {ss : List (SStmt (ZMod p))} :
    ExecSs O P σ (.call (.ident x t) t key gens args :: ss) (.ok σ') ↔ ∃ v, ExecCall O P σ t key gens args (.ok v) ∧ ExecSs O P (σ.set x v) ss (.ok σ') := by
  simp [exec_call]

/-- One possible value. -/
theorem nonStrictUnpack256_spec {x : ZMod p} (hP : Imports P utils) (hO : Unpacks O) {v : AVal (ZMod p)} :
    Calls O P nonStrictUnpack256 [.field x] (.ok v) ↔ ∃ bl, O.unpack 254 x bl ∧ v = boolsV (false :: false :: bl) := by
  have e0 : (calleeState nonStrictUnpack256 [.field x]).env 0 = some (.field x) := rfl
  rw [calls_ok]
  generalize calleeState nonStrictUnpack256 [.field x] = σ0 at e0
  have hcall : ∀ r, ExecCall O P σ0 (.array 254 .bool) kUnchecked [] [fv 0] r ↔ ∃ bl, O.unpack 254 x bl ∧ r = .ok (boolsV bl) := by
    intro r
    rw [call_here (i := unpackUnchecked 254) [] evL_nil (evL_cons (ev_fv e0) evL_nil) (hP _ _ _ _ _ rfl), unpackUnchecked_spec (hP _ _ _ _ _ rfl) hO]
  have hret : ∀ {bl}, O.unpack 254 x bl → evalT (σ0.set 1 (boolsV bl)).env (nonStrictUnpack256 (p := p)).ret = .ok (boolsV (false :: false :: bl)) := by
    intro bl h
    have := ev_array (env := (σ0.set 1 (boolsV bl)).env) (t := .bool) (n := 256) (evS_expr (ev_bval (b := false)) (evS_expr (ev_bval (b := false))
      (evS_spread (v := bl.map AVal.bool) (ev_bv (x := 1) rfl (hO _ _ _ h).1) evS_nil)))
    simpa [boolsV, nonStrictUnpack256] using this
  simp only [show (nonStrictUnpack256 (p := p)).body = [call 1 (.array 254 .bool) kUnchecked [fv 0]] from rfl, call, exec_call_ok, hcall, exec_nil, Except.ok.injEq]
  constructor
  · rintro ⟨σ, ⟨v1, ⟨bl, h1, rfl⟩, rfl⟩, h2⟩
    rw [hret h1] at h2
    exact ⟨bl, h1, (Except.ok.inj h2).symm⟩
  · rintro ⟨bl, h1, rfl⟩
    exact ⟨_, ⟨_, ⟨bl, h1, rfl⟩, rfl⟩, hret h1⟩

theorem fieldToU_spec {x : ZMod p} {w : UW} (hP : Imports P utils) (hO : Unpacks O) (hC : Canonical O) (hp : p ≠ 2) (hs : Fld.requiredBits p < 2 ^ 32) (hw : w.bits ≤ Fld.requiredBits p)
    {v : AVal (ZMod p)} : Calls O P (fieldToU w) [.field x] (.ok v) ↔ v = .uint w (x.val % 2 ^ w.bits) := by
  have e0 : (calleeState (fieldToU w) [.field x]).env 0 = some (.field x) := rfl
  rw [calls_ok]
  generalize calleeState (fieldToU w) [.field x] = σ0 at e0
  have hcall : ∀ v, ExecCall O P σ0 (.array (Fld.requiredBits p) .bool) kUnpack [] [fv 0] (.ok v) ↔ v = boolsV (bitsBE (Fld.requiredBits p) x.val) := by
    intro r
    rw [call_here (i := unpack (Fld.requiredBits p)) [] evL_nil (evL_cons (ev_fv e0) evL_nil) (hP _ _ _ _ _ rfl), unpack_spec hP hO hC hp hs, and_iff_right (val_lt_bits x)]
  have hbits : ∀ v, ExecCall O P (σ0.set 1 (boolsV (bitsBE (Fld.requiredBits p) x.val))) (.uint w) kFromBits [] [.slice .bool w.bits (bv 1 (Fld.requiredBits p))
      (.ubin .b32 .sub (ul (Fld.requiredBits p)) (ul w.bits)) (ul (Fld.requiredBits p))] (.ok v) ↔ v = .uint w (x.val % 2 ^ w.bits) := by
    intro v
    rw [call_flatTo (t := .uint w) (f := .uFromBits w.bits) (g := []) (v := .uint w (x.val % 2 ^ w.bits)) [] evL_nil (evL_cons (v := boolsV (bitsBE w.bits x.val)) (by
        have := ev_slice (env := (σ0.set 1 (boolsV (bitsBE (Fld.requiredBits p) x.val))).env) (t := .bool) (n := w.bits) (vs := (bitsBE (Fld.requiredBits p) x.val).map AVal.bool)
          (ev_bv (x := 1) (n := Fld.requiredBits p) rfl (by simp)) (ev_usub (w := .b32) ev_ul ev_ul hw hs) (ev_ul (n := Fld.requiredBits p)) (by omega) (by simp)
        rw [this, boolsV, ← List.map_take, ← List.map_drop, List.take_of_length_le (by simp), drop_bitsBE, show Fld.requiredBits p - (Fld.requiredBits p - w.bits) = w.bits by omega]) evL_nil)
      (hP _ _ _ _ _ (by simp [utils, TExpr.ty])) ⟨rfl, Nat.mod_lt _ (by positivity)⟩]
    · simp
    · intro r
      simp only [primsL, prims_boolsV, List.append_nil, prims]
      rw [embed_fromBits (by simp), natBE_bitsBE]
  simp only [fieldToU, call, exec_call_ok, hcall, exec_nil, Except.ok.injEq, exists_eq_left, hbits]
  constructor
  · intro h2
    have h3 : evalT ((σ0.set 1 (boolsV (bitsBE (Fld.requiredBits p) x.val))).set 2 (.uint w (x.val % 2 ^ w.bits))).env (.ident 2 (.uint w)) = .ok (.uint w (x.val % 2 ^ w.bits)) :=
      ev_ident rfl ⟨rfl, Nat.mod_lt _ (by positivity)⟩
    exact (Except.ok.inj (h3.symm.trans h2)).symm
  · rintro rfl
    exact ev_ident rfl ⟨rfl, Nat.mod_lt _ (by positivity)⟩

end Zok.Typed.Std
