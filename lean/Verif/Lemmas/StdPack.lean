import Verif.Lemmas.StdEval

/-
`utils/pack`: packing and unpacking of field elements.
-/

set_option linter.unusedSectionVars false

namespace Zok.Typed.Std
open Abi
variable {p : ℕ} {Z : Type} [Fact p.Prime] {O : Oracle p Z} {P : Program (ZMod p)}

theorem natBE_drop_succ (bl : List Bool) (j : ℕ) (hj : j < bl.length) :
    natBE (bl.drop (bl.length - (j + 1))) = (bl[bl.length - (j + 1)]'(by omega)).toNat * 2 ^ j + natBE (bl.drop (bl.length - j)) := by
  have h1 : bl.length - j = bl.length - (j + 1) + 1 := by omega
  rw [List.drop_eq_getElem_cons (i := bl.length - (j + 1)) (by omega), natBE, ← h1]
  simp
  omega

theorem pack_spec {bl : List Bool} {N : ℕ} (h : bl.length = N) (hN : N < 2 ^ 32) : CallsTo O P (pack N) [boolsV bl] (.ok (.field (natBE bl : ℕ))) := by
  rw [callsTo_iff]
  refine fwp (wp_var ev_fval ?_)
  refine wp_for (l := 0) (h := N) (fun j σ => σ.env 0 = some (boolsV bl) ∧ σ.env 9 = some (.uint .b32 N) ∧ σ.env 1 = some (.field (natBE (bl.drop (N - j)) : ℕ)))
    ev_ul (ev_uv rfl hN) (by omega) ?_ ?_ ?_
  · simp [pack, calleeState, TState.set, TState.setAll, natBE, ← h]
  · rintro j σ - hj ⟨h0, h9, h1⟩
    refine wp_var (ev_usub (ev_uv lk(h9) hN) (ev_uadd (ev_uv lk(rfl) (by omega)) ev_ul (by simp [UW.bits]; omega)) (by omega) hN)
      (wp_var (ev_add (ev_fv lk(h1)) (ev_condF (ev_selectBits (ev_bv lk(h0) h) (ev_uv lk(rfl) (by omega)) (by omega)) (ev_pow ev_fval (ev_uv lk(rfl) (by omega))) ev_fval)) (wp_nil ?_))
    subst h
    simp [TState.set, h0, h9, natBE_drop_succ bl j hj]
    cases bl[bl.length - (j + 1)] <;> simp [add_comm]
  · rintro σ ⟨-, -, h1⟩
    refine wp_nil ?_
    simp [pack, evalT, fv, h1, HasType]

theorem val_lt_bits (x : ZMod p) : ZMod.val x < 2 ^ Fld.requiredBits p :=
  lt_of_lt_of_le (ZMod.val_lt x) (Nat.lt_size_self p).le

theorem unpackUnchecked_spec {x : ZMod p} {N : ℕ} (hlib : P kUnpackE [] [.field] (.array N .bool) = some (.flat .unpack [N])) (hO : Unpacks O) {r : Except Fault (AVal (ZMod p))} :
    Calls O P (unpackUnchecked N) [.field x] r ↔ ∃ bl, O.unpack N x bl ∧ r = .ok (boolsV bl) := by
  have hcall : ∀ r, ExecCall O P (calleeState (unpackUnchecked N) [.field x]) (.array N .bool) kUnpackE [] [fv 0] r ↔ ∃ bl, O.unpack N x bl ∧ r = .ok (boolsV bl) := by
    intro r
    rw [call_flat [] evL_nil (evL_cons (ev_fv rfl) evL_nil) hlib]
    constructor
    · rintro (⟨v, h1, h2, rfl⟩ | ⟨e, h1, rfl⟩)
      · simp only [primsL, prims, List.append_nil] at h2
        rw [embed_unpack] at h2
        obtain ⟨bl, h3, h4⟩ := h2
        refine ⟨bl, h3, ?_⟩
        rw [prims_inj _ v (boolsV bl) h1 (hasType_boolsV (hO _ _ _ h3).1) (by rw [prims_boolsV]; exact Except.ok.inj h4)]
      · simp only [primsL, prims, List.append_nil] at h1
        rw [embed_unpack] at h1
        obtain ⟨bl, h3, h4⟩ := h1
        cases h4
    · rintro ⟨bl, h1, rfl⟩
      refine .inl ⟨boolsV bl, hasType_boolsV (hO _ _ _ h1).1, ?_, rfl⟩
      simp only [primsL, prims, List.append_nil]
      rw [embed_unpack]
      exact ⟨bl, h1, by rw [prims_boolsV]⟩
  have hret : ∀ {bl}, O.unpack N x bl → evalT ((calleeState (unpackUnchecked N) [.field x]).set 1 (boolsV bl)).env (bv 1 N) = .ok (boolsV bl) := fun h => ev_bv rfl (hO _ _ _ h).1
  constructor
  · rintro (⟨σ, h1, rfl⟩ | ⟨f, h1, rfl⟩)
    · rw [unpackUnchecked, call, exec_call] at h1
      rcases h1 with ⟨v, h2, h3⟩ | ⟨f, h2, h3⟩
      · obtain ⟨bl, h4, h5⟩ := (hcall _).1 h2
        cases h5
        rw [exec_nil] at h3
        cases h3
        exact ⟨bl, h4, hret h4⟩
      · cases h3
    · rw [unpackUnchecked, call, exec_call] at h1
      rcases h1 with ⟨v, h2, h3⟩ | ⟨f, h2, h3⟩
      · rw [exec_nil] at h3
        cases h3
      · obtain ⟨bl, h4, h5⟩ := (hcall _).1 h2
        cases h5
  · rintro ⟨bl, h1, rfl⟩
    refine .inl ⟨_, exec_call.2 (.inl ⟨_, (hcall _).2 ⟨bl, h1, rfl⟩, exec_nil.2 rfl⟩), (hret h1).symm⟩

theorem requiredBits_bounds (hp : p ≠ 2) : 2 ^ (Fld.requiredBits p) < 2 * p := by
  have hpp : p.Prime := Fact.out
  have h1 : 0 < Fld.requiredBits p := Nat.size_pos.2 hpp.pos
  have h2 : 2 ^ (Fld.requiredBits p - 1) ≤ p := Nat.lt_size.1 (by show Fld.requiredBits p - 1 < Fld.requiredBits p; omega)
  have h3 : 2 ^ (Fld.requiredBits p - 1) ≠ p := by
    intro h
    rcases Nat.eq_zero_or_pos (Fld.requiredBits p - 1) with h4 | h4
    · rw [h4] at h; exact hpp.one_lt.ne h
    · have : 2 ∣ p := h ▸ dvd_pow_self 2 h4.ne'
      exact hp ((Nat.prime_dvd_prime_iff_eq Nat.prime_two hpp).1 this).symm
  have h4 : 2 ^ (Fld.requiredBits p) = 2 * 2 ^ (Fld.requiredBits p - 1) := by rw [← pow_succ']; congr 1; omega
  omega

/-- Bits which represent a field element and are smaller than `p`. -/
theorem bits_of_lt {n : ℕ} {bl : List Bool} {x : ZMod p} (hl : bl.length = n) (hx : ((natBE bl : ℕ) : ZMod p) = x) (h : natBE bl < p) : x.val < 2 ^ n ∧ bl = bitsBE n x.val := by
  subst hx hl
  rw [ZMod.val_natCast_of_lt h]
  exact ⟨natBE_lt bl, (bitsBE_natBE bl).symm⟩

/-- The only decomposition of `-1` into as many bits as the modulus has. -/
theorem bits_negOne (hp : p ≠ 2) {bl : List Bool} (hl : bl.length = Fld.requiredBits p) (hx : ((natBE bl : ℕ) : ZMod p) = -1) : natBE bl = p - 1 := by
  have hpp : p.Prime := Fact.out
  have h1 := natBE_lt bl
  rw [hl] at h1
  have h2 := requiredBits_bounds (p := p) hp
  have h3 : ((natBE bl + 1 : ℕ) : ZMod p) = 0 := by push_cast; rw [hx]; ring
  rw [ZMod.natCast_eq_zero_iff] at h3
  obtain ⟨k, hk⟩ := h3
  have h5 : natBE bl + 1 ≤ 2 * p - 1 := by omega
  have : k < 2 := by
    by_contra h6
    have : p * 2 ≤ p * k := Nat.mul_le_mul_left p (by omega)
    have := hpp.two_le
    omega
  have : k ≠ 0 := by rintro rfl; omega
  obtain rfl : k = 1 := by omega
  omega

theorem unpack_spec {x : ZMod p} {N : ℕ} (hP : Imports P utils) (hO : Unpacks O) (hC : Canonical O) (hp : p ≠ 2) (hN : N < 2 ^ 32) {v : AVal (ZMod p)} :
    Calls O P (unpack N) [.field x] (.ok v) ↔ x.val < 2 ^ N ∧ v = boolsV (bitsBE N x.val) := by
  have hpp : p.Prime := Fact.out
  have hU := fun (n : ℕ) (y : ZMod p) r => unpackUnchecked_spec (P := P) (x := y) (N := n) (r := r) (hP _ _ _ _ _ rfl) hO
  have hcalls : Calls O P (unpack N) [.field x] (.ok v) ↔ ∃ σ, ExecSs O P (calleeState (unpack N) [.field x]) (unpack N).body (.ok σ) ∧ .ok v = evalT σ.env (bv 1 N) := by
    simp [Calls, unpack]
  rw [hcalls]
  have e0 : (calleeState (unpack N) [.field x]).env 0 = some (.field x) := rfl
  have e9 : (calleeState (unpack N) [.field x]).env 9 = some (.uint .b32 N) := rfl
  generalize calleeState (unpack N) [.field x] = σ0 at e0 e9
  have hcall : ∀ r, ExecCall O P σ0 (.array N .bool) kUnchecked [] [fv 0] r ↔ ∃ bl, O.unpack N x bl ∧ r = .ok (boolsV bl) := by
    intro r
    rw [call_here (i := unpackUnchecked N) [] evL_nil (evL_cons (ev_fv e0) evL_nil) (hP _ _ _ _ _ rfl), hU]
  by_cases hs : Fld.requiredBits p ≤ N
  · have hneg : ∀ (bl : List Bool) r, ExecCall O P (σ0.set 1 (boolsV bl)) (.array (Fld.requiredBits p) .bool) kUnchecked [ul (Fld.requiredBits p)] [.fneg (.fval 1)] r ↔
        ∃ b1, O.unpack (Fld.requiredBits p) (-1) b1 ∧ r = .ok (boolsV b1) := by
      intro bl r
      rw [call_here (i := unpackUnchecked (Fld.requiredBits p)) [Fld.requiredBits p] (evL_cons ev_ul evL_nil) (evL_cons (ev_neg ev_fval) evL_nil)
        (hP _ _ _ _ _ (by simp [utils, TExpr.ty])), hU]
    have hle : ∀ (bl b1 : List Bool) r, bl.length = N → b1.length = Fld.requiredBits p →
        (ExecCall O P ((σ0.set 1 (boolsV bl)).set 2 (boolsV b1)) .bool kLe [] [bv 1 N, .array .bool N [.spread (.repeat_ .bool (N - Fld.requiredBits p) (.bval false)
          (.ubin .b32 .sub (uv 9) (ul (Fld.requiredBits p)))), .spread (bv 2 (Fld.requiredBits p))]] r ↔ r = .ok (.bool (decide (natBE bl ≤ natBE b1)))) := by
      intro bl b1 r hl h1
      have hlen : (List.replicate (N - Fld.requiredBits p) false ++ b1).length = N := by simp [h1]; omega
      rw [call_flatTo (f := .bitArrayLe) (g := [N]) (v := .bool (decide (natBE bl ≤ natBE b1))) [] evL_nil
        (evL_cons (ev_bv rfl hl) (evL_cons (v := boolsV (List.replicate (N - Fld.requiredBits p) false ++ b1)) (by
          have := ev_array (env := ((σ0.set 1 (boolsV bl)).set 2 (boolsV b1)).env) (t := .bool) (n := N)
            (evS_spread (ev_repeat (t := .bool) (n := N - Fld.requiredBits p) (ev_bval (b := false)) (ev_usub (ev_uv (x := 9) lk(e9) hN) (ev_ul (n := Fld.requiredBits p)) hs hN))
            (evS_spread (v := b1.map AVal.bool) (ev_bv (x := 2) rfl h1) evS_nil))
          simpa [boolsV] using this) evL_nil)) (hP _ _ _ _ _ (by simp [utils, TExpr.ty, bv])) (by simp [HasType])]
      intro r
      have := embed_bitArrayLe (O := O) (al := bl) (bl := List.replicate (N - Fld.requiredBits p) false ++ b1) hl hlen r
      rw [natBE_append, natBE_replicate_false] at this
      simpa [primsL, prims_boolsV, prims] using this
    simp only [unpack, if_pos hs, call, exec_call, hcall]
    constructor
    · rintro ⟨σ, ⟨v1, ⟨bl, h1, h2⟩, h3⟩ | ⟨f, h1, h2⟩, h4⟩
      · cases h2
        rcases h3 with ⟨v2, h5, h6⟩ | ⟨f, h5, h6⟩
        · obtain ⟨b1, h7, h8⟩ := (hneg bl _).1 h5
          cases h8
          rcases h6 with ⟨v3, h9, h10⟩ | ⟨f, h9, h10⟩
          · have h11 := (hle bl b1 _ (hO _ _ _ h1).1 (hO _ _ _ h7).1).1 h9
            cases h11
            rw [exec_assert (ev_ident rfl (by simp [HasType])), bits_negOne hp (hO _ _ _ h7).1 (hO _ _ _ h7).2] at h10
            split at h10
            · rename_i hle'
              rw [exec_nil] at h10
              cases h10
              have hlt : natBE bl < p := by have := hpp.pos; have := of_decide_eq_true hle'; omega
              obtain ⟨h12, h13⟩ := bits_of_lt (hO _ _ _ h1).1 (hO _ _ _ h1).2 hlt
              refine ⟨h12, ?_⟩
              rw [← h13]
              rw [ev_bv (bl := bl) rfl (hO _ _ _ h1).1] at h4
              exact Except.ok.inj h4
            · cases h10
          · cases h10
        · cases h6
      · cases h2
    · rintro ⟨h1, rfl⟩
      have hc := hC N x h1
      have hc1 := hC (Fld.requiredBits p) (-1) (val_lt_bits _)
      refine ⟨((σ0.set 1 (boolsV (bitsBE N x.val))).set 2 (boolsV (bitsBE (Fld.requiredBits p) (ZMod.val (-1 : ZMod p))))).set 3
          (.bool (decide (natBE (bitsBE N x.val) ≤ natBE (bitsBE (Fld.requiredBits p) (ZMod.val (-1 : ZMod p)))))),
        .inl ⟨_, ⟨_, hc, rfl⟩, .inl ⟨_, (hneg _ _).2 ⟨_, hc1, rfl⟩, .inl ⟨_, (hle _ _ _ (hO _ _ _ hc).1 (hO _ _ _ hc1).1).2 rfl, ?_⟩⟩⟩, ?_⟩
      · rw [exec_assert (ev_ident rfl (by simp [HasType])), bits_negOne hp (hO _ _ _ hc1).1 (hO _ _ _ hc1).2, natBE_bitsBE_of_lt h1, if_pos, exec_nil]
        have := ZMod.val_lt x
        exact decide_eq_true (by omega)
      · exact (ev_bv (x := 1) rfl (hO _ _ _ hc).1).symm
  · simp only [unpack, if_neg hs, call, exec_call, hcall]
    have hNp : 2 ^ N ≤ p := Nat.lt_size.1 (by show N < Fld.requiredBits p; omega)
    constructor
    · rintro ⟨σ, ⟨v1, ⟨bl, h1, h2⟩, h3⟩ | ⟨f, h1, h2⟩, h4⟩
      · cases h2
        rw [exec_assert ev_bval, if_pos rfl, exec_nil] at h3
        cases h3
        have hlt : natBE bl < p := by have := natBE_lt bl; rw [(hO _ _ _ h1).1] at this; omega
        obtain ⟨h12, h13⟩ := bits_of_lt (hO _ _ _ h1).1 (hO _ _ _ h1).2 hlt
        refine ⟨h12, ?_⟩
        rw [← h13]
        rw [ev_bv (bl := bl) rfl (hO _ _ _ h1).1] at h4
        exact Except.ok.inj h4
      · cases h2
    · rintro ⟨h1, rfl⟩
      have hc := hC N x h1
      refine ⟨_, .inl ⟨_, ⟨_, hc, rfl⟩, ?_⟩, (ev_bv (x := 1) (env := (σ0.set 1 (boolsV (bitsBE N x.val))).env) rfl (hO _ _ _ hc).1).symm⟩
      rw [exec_assert ev_bval, if_pos rfl, exec_nil]

end Zok.Typed.Std
