import Verif.Lemmas.StdUnpack

/-
`utils/casts` and `utils/multiplexer`.
-/

set_option linter.unusedSectionVars false

namespace Zok.Typed.Std
open Abi
variable {p : ℕ} {Z : Type} [Fact p.Prime] {O : Oracle p Z} {P : Program (ZMod p)}

theorem hasType_uint {w : UW} {n : ℕ} (h : n < 2 ^ w.bits) : HasType (.uint w) (.uint w n : AVal (ZMod p)) := ⟨rfl, h⟩

theorem hasType_uintsV {w : UW} {ns : List ℕ} {k : ℕ} (hk : ns.length = k) (h : ∀ n ∈ ns, n < 2 ^ w.bits) : HasType (.array k (.uint w)) (uintsV (p := p) w ns) := by
  simp only [uintsV, HasType, List.length_map, hk, true_and, List.mem_map]
  rintro v ⟨b, hb, rfl⟩
  exact ⟨rfl, h b hb⟩

theorem hasType_fieldsV {xs : List (ZMod p)} {k : ℕ} (hk : xs.length = k) : HasType (.array k .field) (fieldsV xs) := by
  simp only [fieldsV, HasType, List.length_map, hk, true_and, List.mem_map]
  rintro v ⟨b, hb, rfl⟩
  trivial

theorem ev_u {env : TEnv p} {x : TId} {w : UW} {n : ℕ} (h : env x = some (.uint w n)) (hn : n < 2 ^ w.bits) : evalT env (.ident x (.uint w)) = .ok (.uint w n) :=
  ev_ident h ⟨rfl, hn⟩

/-- Conversion of an integer to bits. -/
theorem wp_toBits {σ : TState p} {x : TId} {w : UW} {n : ℕ} {e : TExpr (ZMod p)} {ss : List (SStmt (ZMod p))} {R : Except Fault (TState p) → Prop}
    (hP : Imports P utils) (he : evalT σ.env e = .ok (.uint w n)) (hty : e.ty = .uint w) (h : WP O P (σ.set x (boolsV (bitsBE w.bits n))) ss R) :
    WP O P σ (call x (.array w.bits .bool) kToBits [e] :: ss) R := by
  refine wp_flatTo (f := .uToBits w.bits) (g := []) (v := boolsV (bitsBE w.bits n)) (evL_cons he evL_nil) (hP _ _ _ _ _ (by simp [utils, hty])) (hasType_boolsV (by simp)) (fun r => ?_) rfl h
  rw [prims_boolsV]
  exact embed_toBits r

/-- Conversion of bits to an integer. -/
theorem wp_fromBits {σ : TState p} {a : TAssignee (ZMod p)} {w : UW} {bl : List Bool} {u : AVal (ZMod p)} {e : TExpr (ZMod p)} {ss : List (SStmt (ZMod p))} {R : Except Fault (TState p) → Prop}
    (hP : Imports P utils) (he : evalT σ.env e = .ok (boolsV bl)) (hl : bl.length = w.bits) (hty : e.ty = .array w.bits .bool) (hu : setA σ.env a (.uint w (natBE bl)) = .ok u)
    (h : WP O P (σ.set a.root u) ss R) : WP O P σ (.call a (.uint w) kFromBits [] [e] :: ss) R := by
  refine wp_flatTo (f := .uFromBits w.bits) (g := []) (v := .uint w (natBE bl)) (evL_cons he evL_nil) (hP _ _ _ _ _ (by simp [utils, hty])) (hasType_uint (by rw [← hl]; exact natBE_lt bl))
    (fun r => ?_) hu h
  simp only [primsL, prims_boolsV, List.append_nil, prims]
  exact embed_fromBits hl r

theorem castFromBits_spec {w : UW} {bl : List Bool} (hP : Imports P utils) (hl : bl.length = w.bits) : CallsTo O P (castFromBits w) [boolsV bl] (.ok (.uint w (natBE bl))) := by
  rw [callsTo_iff]
  refine fwp (wp_fromBits hP (ev_bv (x := 0) rfl hl) hl rfl rfl (wp_nil ?_))
  exact ev_u rfl (by rw [← hl]; exact natBE_lt bl)

theorem castToBits_spec {w : UW} {n : ℕ} (hP : Imports P utils) (hn : n < 2 ^ w.bits) : CallsTo O P (castToBits w) [.uint w n] (.ok (boolsV (bitsBE w.bits n))) := by
  rw [callsTo_iff]
  refine fwp (wp_toBits hP (ev_u (x := 0) rfl hn) rfl (wp_nil ?_))
  exact ev_bv rfl (by simp)

theorem castUp_spec {w w' : UW} {n : ℕ} (hP : Imports P utils) (hn : n < 2 ^ w.bits) (hw : w.bits ≤ w'.bits) : CallsTo O P (castUp w w') [.uint w n] (.ok (.uint w' n)) := by
  rw [callsTo_iff]
  have hb : natBE (List.replicate (w'.bits - w.bits) false ++ bitsBE w.bits n) = n := by
    rw [natBE_append, natBE_replicate_false, natBE_bitsBE_of_lt hn]; simp
  refine fwp (wp_toBits hP (ev_u (x := 0) rfl hn) rfl (wp_fromBits (bl := List.replicate (w'.bits - w.bits) false ++ bitsBE w.bits n) hP ?_ (by simp; omega) rfl rfl (wp_nil ?_)))
  · have := ev_array (env := ((calleeState (castUp (p := p) w w') [.uint w n]).set 1 (boolsV (bitsBE w.bits n))).env) (t := .bool) (n := w'.bits)
      (evS_spread (ev_repeat (t := .bool) (n := w'.bits - w.bits) (ev_bval (b := false)) (ev_ul (n := w'.bits - w.bits)))
        (evS_spread (v := (bitsBE w.bits n).map AVal.bool) (ev_bv (x := 1) (n := w.bits) rfl (by simp)) evS_nil))
    simpa [boolsV] using this
  · rw [hb]
    exact ev_u rfl (lt_of_lt_of_le hn (Nat.pow_le_pow_right (by omega) hw))

theorem natBE_take_succ (bl : List Bool) (j : ℕ) (hj : j < bl.length) :
    natBE (bl.take (j + 1)) * 2 ^ (bl.length - (j + 1)) = natBE (bl.take j) * 2 ^ (bl.length - j) + (bl[j]).toNat * 2 ^ (bl.length - j - 1) := by
  rw [← List.take_concat_get' _ _ hj, natBE_append]
  have : bl.length - j = (bl.length - (j + 1)) + 1 := by omega
  rw [this, pow_succ]
  simp [natBE]
  ring

theorem castToField_spec {w : UW} {n : ℕ} (hP : Imports P utils) (hn : n < 2 ^ w.bits) : CallsTo O P (castToField w) [.uint w n] (.ok (.field (n : ZMod p))) := by
  rw [callsTo_iff]
  have hw : w.bits ≤ 64 := by cases w <;> decide
  have hlen : (bitsBE w.bits n).length = w.bits := by simp
  refine fwp (wp_toBits hP (ev_u (x := 0) rfl hn) rfl (wp_var ev_fval ?_))
  refine wp_for (l := 0) (h := w.bits) (fun j σ => σ.env 1 = some (boolsV (bitsBE w.bits n)) ∧ σ.env 2 = some (.field ((natBE ((bitsBE w.bits n).take j) * 2 ^ (w.bits - j) : ℕ) : ZMod p)))
    ev_ul ev_ul (by omega) ?_ ?_ ?_
  · simp [TState.set, natBE]
  · rintro j σ - hj ⟨h1, h2⟩
    refine wp_var (ev_usub (ev_usub ev_ul (ev_uv lk(rfl) (by omega)) (by omega) (by show _ < 2 ^ 32; omega)) ev_ul (by omega) (by show _ < 2 ^ 32; omega))
      (wp_var (ev_add (ev_fv lk(h2)) (ev_condF (ev_selectBits (ev_bv lk(h1) hlen) (ev_uv lk(rfl) (by omega)) (by rw [hlen]; omega)) (ev_pow ev_fval (ev_uv lk(rfl) (by omega))) ev_fval)) (wp_nil ?_))
    have h3 := natBE_take_succ (bitsBE w.bits n) j (by rw [hlen]; omega)
    simp only [hlen] at h3
    simp only [TState.set, h1]
    refine ⟨by simp, ?_⟩
    simp only [if_true, Option.some.injEq, AVal.field.injEq]
    rw [h3]
    cases (bitsBE w.bits n)[j] <;> simp
  · rintro σ ⟨-, h2⟩
    refine wp_nil ?_
    rw [List.take_of_length_le (by simp), natBE_bitsBE_of_lt hn, Nat.sub_self, pow_zero, mul_one] at h2
    exact ev_fv (x := 2) h2

/-! ### Arrays -/

/-- Assignment to an element of an array. -/
theorem setA_select {env : TEnv p} {x : TId} {t : CType} {vs : List (AVal (ZMod p))} {i : TExpr (ZMod p)} {k : ℕ} {v : AVal (ZMod p)} (hx : env x = some (.array vs)) (ht : HasType t (.array vs))
    (hi : evalT env i = .ok (.uint .b32 k)) (hk : k < vs.length) : setA env (.select (.ident x t) i) v = .ok (.array (vs.set k v)) := by
  simp [setA, getA, ev_ident hx ht, hi, bind, Except.bind, asArray, asUint, hk]

theorem set_take {α : Type*} (out : List α) (z : α) (i : ℕ) (h : i < out.length) :
    (out.take i ++ List.replicate (out.length - i) z).set i out[i] = out.take (i + 1) ++ List.replicate (out.length - (i + 1)) z := by
  have h1 : (out.take i).length = i := by simp; omega
  have h2 : out.length - i = (out.length - (i + 1)) + 1 := by omega
  rw [List.set_append_right _ _ (by omega), h1, Nat.sub_self, h2, List.replicate_succ, List.set_cons_zero, ← List.take_concat_get' _ _ h, List.append_assoc]
  rfl

/-- A chunk of a concatenation of lists of the same length. -/
theorem chunk {α β : Type*} (f : α → List β) (w : ℕ) (l : List α) (hf : ∀ a ∈ l, (f a).length = w) (i : ℕ) (h : i < l.length) :
    ((l.flatMap f).take ((i + 1) * w)).drop (i * w) = f l[i] := by
  induction l generalizing i with
  | nil => simp at h
  | cons a l ih =>
    have ha : (f a).length = w := hf a (by simp)
    cases i with
    | zero => simp [← ha]
    | succ i =>
      have := ih (fun b hb => hf b (by simp [hb])) i (by simpa using h)
      rw [List.flatMap_cons, List.take_append, List.drop_append]
      have e1 : (i + 1 + 1) * w - (f a).length = (i + 1) * w := by rw [ha, Nat.add_mul (i + 1) 1, Nat.one_mul]; omega
      have e2 : ((f a).take ((i + 1 + 1) * w)).length = w := by rw [List.length_take, ha]; exact min_eq_right (Nat.le_mul_of_pos_left w (by omega))
      rw [e2, e1, show (i + 1) * w - w = i * w by rw [Nat.add_mul, Nat.one_mul]; omega, this]
      rw [List.drop_of_length_le (by rw [e2]; exact Nat.le_mul_of_pos_left w (by omega))]
      rfl

theorem length_flatMap_const {α β : Type*} (f : α → List β) (w : ℕ) (l : List α) (hf : ∀ a ∈ l, (f a).length = w) : (l.flatMap f).length = l.length * w := by
  induction l with
  | nil => simp
  | cons a l ih =>
    rw [List.flatMap_cons, List.length_append, hf a (by simp), ih (fun b hb => hf b (by simp [hb])), List.length_cons]
    ring

theorem castFromBitsArr_spec {w : UW} {ns : List ℕ} {N K : ℕ} (hP : Imports P utils) (hns : ∀ n ∈ ns, n < 2 ^ w.bits) (hK : ns.length = K) (hN : N = w.bits * K) (hN2 : N < 2 ^ 32) :
    CallsTo O P (castFromBitsArr w N K) [boolsV (ns.flatMap (bitsBE w.bits))] (.ok (uintsV w ns)) := by
  rw [callsTo_iff]
  have hw : 0 < w.bits := by cases w <;> decide
  have hKN : K ≤ N := by rw [hN]; exact Nat.le_mul_of_pos_left K hw
  have hbl : (ns.flatMap (bitsBE w.bits)).length = N := by rw [length_flatMap_const _ w.bits _ (by simp), hK, hN, mul_comm]
  refine fwp (wp_assert (ev_eq (ev_uv rfl hN2) (ev_umul ev_ul (ev_uv rfl (by omega)) (by rw [← hN]; exact hN2))) (fun _ => wp_var (ev_repeat ev_uval (ev_uv rfl (by omega))) ?_) (fun h => ?_))
  · refine wp_for (l := 0) (h := K) (fun j σ => σ.env 0 = some (boolsV (ns.flatMap (bitsBE w.bits))) ∧ σ.env 9 = some (.uint .b32 K) ∧
      σ.env 1 = some (uintsV w (ns.take j ++ List.replicate (K - j) 0))) ev_ul (ev_uv rfl (by omega)) (by omega) ?_ ?_ ?_
    · simp [calleeState, castFromBitsArr, TState.set, TState.setAll, uintsV]
    · rintro j σ - hj ⟨h0, h9, h1⟩
      have hj' : j < ns.length := by omega
      have e1 : (j + 1) * w.bits ≤ N := by rw [hN, mul_comm]; exact Nat.mul_le_mul_left _ (by omega)
      have e2 : j * w.bits ≤ (j + 1) * w.bits := Nat.mul_le_mul_right _ (by omega)
      refine wp_fromBits (bl := bitsBE w.bits ns[j]) (u := uintsV w (ns.take (j + 1) ++ List.replicate (K - (j + 1)) 0)) hP ?_ (by simp) rfl ?_ (wp_nil ?_)
      · have := ev_slice (env := (σ.set 2 (.uint .b32 j)).env) (t := .bool) (n := w.bits) (vs := (ns.flatMap (bitsBE w.bits)).map AVal.bool) (l := j * w.bits) (h := (j + 1) * w.bits)
          (ev_bv (x := 0) (n := N) lk(h0) hbl) (ev_umul (w := .b32) (ev_uv (x := 2) lk(rfl) (by omega)) (ev_ul (n := w.bits)) (by show _ < 2 ^ 32; omega))
          (ev_umul (w := .b32) (ev_uadd (ev_uv (x := 2) lk(rfl) (by omega)) (ev_ul (n := 1)) (by show _ < 2 ^ 32; omega)) (ev_ul (n := w.bits)) (by show _ < 2 ^ 32; omega)) e2
          (by rw [List.length_map, hbl]; exact e1)
        rw [this, ← List.map_take, ← List.map_drop, chunk _ w.bits ns (by simp) j hj']
        rfl
      · rw [natBE_bitsBE_of_lt (hns _ (List.getElem_mem hj'))]
        rw [setA_select (k := j) (vs := (ns.take j ++ List.replicate (K - j) 0).map (AVal.uint w)) lk(h1) ?_ (ev_uv lk(rfl) (by omega)) (by simp; omega)]
        · rw [← List.map_set]
          subst hK
          rw [set_take ns 0 j hj']
          rfl
        · refine hasType_uintsV (by simp; omega) ?_
          intro n hn
          rcases List.mem_append.1 hn with h | h
          · exact hns _ (List.mem_of_mem_take h)
          · rw [(List.mem_replicate.1 h).2]; positivity
      · simp [TState.set, TAssignee.root, h0, h9]
    · rintro σ ⟨-, -, h1⟩
      rw [Nat.sub_self, List.replicate_zero, List.append_nil, List.take_of_length_le (by omega)] at h1
      exact wp_nil (ev_ident h1 (hasType_uintsV hK hns))
  · simp [← hN] at h

/-- The sizes do not match. -/
theorem castFromBitsArr_bad {w : UW} {bl : List Bool} {N K : ℕ} (hN : N ≠ w.bits * K) (hN2 : N < 2 ^ 32) (hK2 : w.bits * K < 2 ^ 32) :
    CallsTo O P (castFromBitsArr w N K) [boolsV bl] (.error .assertionFailed) := by
  rw [callsTo_iff]
  have hw : 0 < w.bits := by cases w <;> decide
  have hKN : K ≤ w.bits * K := Nat.le_mul_of_pos_left K hw
  refine fwp (wp_assert (ev_eq (ev_uv rfl hN2) (ev_umul ev_ul (ev_uv rfl (by omega)) hK2)) (fun h => ?_) (fun h => rfl))
  simp [hN] at h

theorem castToBitsArr_spec {w : UW} {ns : List ℕ} {N K : ℕ} (hP : Imports P utils) (hns : ∀ n ∈ ns, n < 2 ^ w.bits) (hN : ns.length = N) (hK : K = w.bits * N) (hK2 : K < 2 ^ 32) :
    CallsTo O P (castToBitsArr w N K) [uintsV w ns] (.ok (boolsV (ns.flatMap (bitsBE w.bits)))) := by
  rw [callsTo_iff]
  have hw : 0 < w.bits := by cases w <;> decide
  have hw2 : w.bits ≤ 64 := by cases w <;> decide
  have hKN : N ≤ K := by rw [hK]; exact Nat.le_mul_of_pos_left N hw
  have hbl : (ns.flatMap (bitsBE w.bits)).length = K := by rw [length_flatMap_const _ w.bits _ (by simp), hN, hK, mul_comm]
  refine fwp (wp_assert (ev_eq (ev_uv rfl hK2) (ev_umul ev_ul (ev_uv rfl (by omega)) (by rw [← hK]; exact hK2))) (fun _ => wp_var (ev_repeat ev_bval (ev_uv rfl (by omega))) ?_) (fun h => ?_))
  · refine wp_for (l := 0) (h := N) (fun i σ => σ.env 0 = some (uintsV w ns) ∧ σ.env 1 = some (boolsV ((ns.flatMap (bitsBE w.bits)).take (i * w.bits) ++ List.replicate (K - i * w.bits) false)))
      ev_ul (ev_uv rfl (by omega)) (by omega) ?_ ?_ ?_
    · simp [calleeState, castToBitsArr, TState.set, TState.setAll, boolsV]
    · rintro i σ - hi ⟨h0, h1⟩
      have hi' : i < ns.length := by omega
      have e1 : i * w.bits + w.bits ≤ K := by
        have : (i + 1) * w.bits ≤ N * w.bits := Nat.mul_le_mul_right _ (by omega)
        rw [Nat.add_mul, Nat.one_mul] at this
        rw [hK, mul_comm w.bits N]
        exact this
      refine wp_toBits (n := ns[i]) hP (ev_select (ev_ident lk(h0) (hasType_uintsV hN hns)) (ev_uv lk(rfl) (by omega)) (by simp [hi'])) rfl ?_
      refine wp_for (l := 0) (h := w.bits) (fun j σ => σ.env 0 = some (uintsV w ns) ∧ σ.env 2 = some (.uint .b32 i) ∧ σ.env 3 = some (boolsV (bitsBE w.bits ns[i])) ∧
          σ.env 1 = some (boolsV ((ns.flatMap (bitsBE w.bits)).take (i * w.bits + j) ++ List.replicate (K - (i * w.bits + j)) false)))
        ev_ul ev_ul (by omega) ?_ ?_ ?_
      · simp [TState.set, h0, h1]
      · rintro j σ' - hj ⟨h0, h2, h3, h1⟩
        have hlt : i * w.bits + j < (ns.flatMap (bitsBE w.bits)).length := by omega
        have hel : (bitsBE w.bits ns[i])[j]'(by simp; omega) = (ns.flatMap (bitsBE w.bits))[i * w.bits + j] := by
          have := chunk (bitsBE w.bits) w.bits ns (by simp) i hi'
          have h4 : (bitsBE w.bits ns[i])[j]? = (ns.flatMap (bitsBE w.bits))[i * w.bits + j]? := by
            rw [← this, List.getElem?_drop, List.getElem?_take, if_pos (by rw [Nat.add_mul, Nat.one_mul]; omega)]
          rw [List.getElem?_eq_getElem (by simp; omega), List.getElem?_eq_getElem hlt] at h4
          exact Option.some.inj h4
        refine wp_def (v := .bool (ns.flatMap (bitsBE w.bits))[i * w.bits + j])
          (u := boolsV ((ns.flatMap (bitsBE w.bits)).take (i * w.bits + (j + 1)) ++ List.replicate (K - (i * w.bits + (j + 1))) false)) ?_ ?_ (wp_nil ?_)
        · rw [← hel]
          exact ev_selectBits (ev_bv lk(h3) (by simp)) (ev_uv lk(rfl) (by omega)) (by simp; omega)
        · rw [setA_select (k := i * w.bits + j) (vs := ((ns.flatMap (bitsBE w.bits)).take (i * w.bits + j) ++ List.replicate (K - (i * w.bits + j)) false).map AVal.bool) lk(h1)
            (hasType_boolsV (by simp only [List.length_append, List.length_take, hbl, List.length_replicate]; omega))
            (ev_uadd (ev_umul (ev_uv lk(h2) (by omega)) ev_ul (by show _ < 2 ^ 32; omega)) (ev_uv lk(rfl) (by omega)) (by show _ < 2 ^ 32; omega))
            (by simp only [List.length_map, List.length_append, List.length_take, hbl, List.length_replicate]; omega)]
          have := set_take (ns.flatMap (bitsBE w.bits)) false (i * w.bits + j) hlt
          rw [hbl] at this
          rw [← List.map_set, this]
          rfl
        · simp [TState.set, TAssignee.root, h0, h2, h3]
      · rintro σ' ⟨h0, h2, h3, h1⟩
        refine wp_nil ⟨h0, ?_⟩
        rw [Nat.add_mul, Nat.one_mul]
        exact h1
    · rintro σ ⟨-, h1⟩
      rw [show N * w.bits = K by rw [hK, mul_comm], Nat.sub_self, List.replicate_zero, List.append_nil, List.take_of_length_le (by omega)] at h1
      exact wp_nil (ev_ident h1 (hasType_boolsV hbl))
  · simp [← hK] at h

theorem castToBitsArr_bad {w : UW} {v : AVal (ZMod p)} {N K : ℕ} (hK : K ≠ w.bits * N) (hK2 : K < 2 ^ 32) (hN2 : w.bits * N < 2 ^ 32) :
    CallsTo O P (castToBitsArr w N K) [v] (.error .assertionFailed) := by
  rw [callsTo_iff]
  have hw : 0 < w.bits := by cases w <;> decide
  have hKN : N ≤ w.bits * N := Nat.le_mul_of_pos_left N hw
  refine fwp (wp_assert (ev_eq (ev_uv rfl hK2) (ev_umul ev_ul (ev_uv rfl (by omega)) hN2)) (fun h => ?_) (fun h => rfl))
  simp [hK] at h

theorem castToFieldArr_spec {w : UW} {ns : List ℕ} {N : ℕ} (hP : Imports P utils) (hns : ∀ n ∈ ns, n < 2 ^ w.bits) (hN : ns.length = N) (hN2 : N < 2 ^ 32) :
    CallsTo O P (castToFieldArr w N) [uintsV w ns] (.ok (fieldsV (ns.map fun n : ℕ => (n : ZMod p)))) := by
  rw [callsTo_iff]
  refine fwp (wp_var (ev_repeat ev_fval (ev_uv rfl (by omega))) ?_)
  refine wp_for (l := 0) (h := N) (fun i σ => σ.env 0 = some (uintsV w ns) ∧ σ.env 1 = some (fieldsV ((ns.map fun n : ℕ => (n : ZMod p)).take i ++ List.replicate (N - i) 0)))
    ev_ul (ev_uv rfl (by omega)) (by omega) ?_ ?_ ?_
  · simp [calleeState, castToFieldArr, TState.set, TState.setAll, fieldsV]
  · rintro i σ - hi ⟨h0, h1⟩
    have hi' : i < ns.length := by omega
    refine wp_call (cwp_here [] evL_nil (evL_cons (ev_select (v := .uint w ns[i]) (ev_ident lk(h0) (hasType_uintsV hN hns)) (ev_uv lk(rfl) (by omega)) (by simp [hi'])) evL_nil)
      (hP _ _ _ _ _ rfl) (FWP.mono (callsTo_iff.1 (castToField_spec hP (hns _ (List.getElem_mem hi')))) ?_))
    rintro r rfl
    refine ⟨fieldsV ((ns.map fun n : ℕ => (n : ZMod p)).take (i + 1) ++ List.replicate (N - (i + 1)) 0), ?_, wp_nil ?_⟩
    · rw [setA_select (k := i) (vs := ((ns.map fun n : ℕ => (n : ZMod p)).take i ++ List.replicate (N - i) 0).map AVal.field) lk(h1)
        (hasType_fieldsV (by simp; omega)) (ev_uv lk(rfl) (by omega)) (by simp; omega)]
      have := set_take (ns.map fun n : ℕ => (n : ZMod p)) 0 i (by simpa using hi')
      simp only [List.length_map, hN, List.getElem_map] at this
      rw [← List.map_set, this]
      rfl
    · simp [TState.set, TAssignee.root, h0]
  · rintro σ ⟨-, h1⟩
    rw [Nat.sub_self, List.replicate_zero, List.append_nil, List.take_of_length_le (by simp; omega)] at h1
    exact wp_nil (ev_ident h1 (hasType_fieldsV (by simpa using hN)))

/-- A sequence of similar statements. -/
theorem wp_range {f : ℕ → SStmt (ZMod p)} {rest : List (SStmt (ZMod p))} {R : Except Fault (TState p) → Prop} (Inv : ℕ → TState p → Prop) (k : ℕ)
    (hstep : ∀ j σ ss, j < k → Inv j σ → (∀ σ', Inv (j + 1) σ' → WP O P σ' ss R) → WP O P σ (f j :: ss) R) (hrest : ∀ σ, Inv k σ → WP O P σ rest R) {σ : TState p} (h0 : Inv 0 σ) :
    WP O P σ ((List.range k).map f ++ rest) R := by
  have key : ∀ m i σ, i + m = k → Inv i σ → WP O P σ ((List.range' i m).map f ++ rest) R := by
    intro m
    induction m with
    | zero =>
      intro i σ h hi
      obtain rfl : i = k := by omega
      exact hrest _ hi
    | succ m ih =>
      intro i σ h hi
      rw [List.range'_succ, List.map_cons, List.cons_append]
      exact hstep i σ _ (by omega) hi fun σ' h' => ih (i + 1) σ' (by omega) h'
  rw [List.range_eq_range']
  exact key k 0 σ (by omega) h0

theorem evS_range_spread {env : TEnv p} {ls : List (List (AVal (ZMod p)))} {e : ℕ → TExpr (ZMod p)} (h : ∀ j (hj : j < ls.length), evalT env (e j) = .ok (.array ls[j])) :
    evalS env ((List.range ls.length).map fun j => .spread (e j)) = .ok ls.flatten := by
  have key : ∀ m i, i + m = ls.length → evalS env ((List.range' i m).map fun j => .spread (e j)) = .ok (ls.drop i).flatten := by
    intro m
    induction m with
    | zero => intro i hi; rw [List.drop_of_length_le (by omega)]; exact evS_nil
    | succ m ih =>
      intro i hi
      rw [List.range'_succ, List.map_cons, evS_spread (h i (by omega)) (ih (i + 1) (by omega)), List.drop_eq_getElem_cons (i := i) (by omega), List.flatten_cons]
  rw [List.range_eq_range', key ls.length 0 (by omega), List.drop_zero]

theorem evS_range_expr {env : TEnv p} {vs : List (AVal (ZMod p))} {e : ℕ → TExpr (ZMod p)} (h : ∀ j (hj : j < vs.length), evalT env (e j) = .ok vs[j]) :
    evalS env ((List.range vs.length).map fun j => .expr (e j)) = .ok vs := by
  have key : ∀ m i, i + m = vs.length → evalS env ((List.range' i m).map fun j => .expr (e j)) = .ok (vs.drop i) := by
    intro m
    induction m with
    | zero => intro i hi; rw [List.drop_of_length_le (by omega)]; exact evS_nil
    | succ m ih =>
      intro i hi
      rw [List.range'_succ, List.map_cons, evS_expr (h i (by omega)) (ih (i + 1) (by omega)), List.drop_eq_getElem_cons (i := i) (by omega)]
  rw [List.range_eq_range', key vs.length 0 (by omega), List.drop_zero]

theorem castCat_spec {w w' : UW} {ns : List ℕ} {k : ℕ} (hP : Imports P utils) (hns : ∀ n ∈ ns, n < 2 ^ w.bits) (hk : ns.length = k) (hw : w'.bits = k * w.bits) :
    CallsTo O P (castCat w w' k) [uintsV w ns] (.ok (.uint w' (natBE (ns.flatMap (bitsBE w.bits))))) := by
  rw [callsTo_iff]
  subst hk
  have hbl : (ns.flatMap (bitsBE w.bits)).length = w'.bits := by rw [length_flatMap_const _ w.bits _ (by simp), hw]
  refine fwp (wp_range (fun j σ => σ.env 0 = some (uintsV w ns) ∧ ∀ i (hi : i < ns.length), i < j → σ.env (10 + i) = some (boolsV (bitsBE w.bits ns[i]))) ns.length ?_ ?_ ?_)
  · rintro j σ ss hj ⟨h0, h1⟩ h
    refine wp_toBits (n := ns[j]) hP (ev_select (ev_ident h0 (hasType_uintsV rfl hns)) ev_ul (by simp [hj])) rfl (h _ ⟨?_, ?_⟩)
    · have : ¬ ((0 : TId) = 10 + j) := by intro h; change @Eq ℕ _ _ at h; omega
      simp [TState.set, h0, this]
    · intro i hi hij
      rcases Nat.lt_succ_iff_lt_or_eq.1 hij with h2 | rfl
      · have : ¬ ((10 + i : TId) = 10 + j) := by intro h; change @Eq ℕ _ _ at h; omega
        exact (if_neg this).trans (h1 i hi h2)
      · simp [TState.set]
  · rintro σ ⟨h0, h1⟩
    refine wp_var (v := boolsV (ns.flatMap (bitsBE w.bits))) ?_ (wp_fromBits hP (ev_bv rfl hbl) hbl rfl rfl (wp_nil ?_))
    · refine ev_array ?_
      have := evS_range_spread (env := σ.env) (ls := ns.map fun n => (bitsBE w.bits n).map AVal.bool) (e := fun j => bv (10 + j) w.bits) (fun j hj => by
        rw [List.getElem_map]
        exact ev_bv (h1 j (by simpa using hj) (by simpa using hj)) (by simp))
      rw [List.length_map] at this
      rw [this]
      simp [List.flatMap, List.map_flatten, Function.comp_def]
    · exact ev_u rfl (by rw [← hbl]; exact natBE_lt _)
  · exact ⟨rfl, fun i hi h => by omega⟩

theorem castSplit_spec {w w' : UW} {ns : List ℕ} {k : ℕ} (hP : Imports P utils) (hns : ∀ n ∈ ns, n < 2 ^ w.bits) (hk : ns.length = k) (hw : w'.bits = k * w.bits) :
    CallsTo O P (castSplit w w' k) [.uint w' (natBE (ns.flatMap (bitsBE w.bits)))] (.ok (uintsV w ns)) := by
  rw [callsTo_iff]
  subst hk
  have hbl : (ns.flatMap (bitsBE w.bits)).length = w'.bits := by rw [length_flatMap_const _ w.bits _ (by simp), hw]
  refine fwp (wp_toBits hP (ev_u (x := 0) rfl (by rw [← hbl]; exact natBE_lt _)) rfl ?_)
  rw [← List.append_nil ((List.range ns.length).map _)]
  refine wp_range (fun j σ => σ.env 1 = some (boolsV (ns.flatMap (bitsBE w.bits))) ∧ ∀ i (hi : i < ns.length), i < j → σ.env (10 + i) = some (.uint w ns[i])) ns.length ?_ ?_ ?_
  · rintro j σ ss hj ⟨h0, h1⟩ h
    have e1 : (j + 1) * w.bits ≤ (ns.flatMap (bitsBE w.bits)).length := by rw [hbl, hw]; exact Nat.mul_le_mul_right _ (by omega)
    refine wp_fromBits (bl := bitsBE w.bits ns[j]) hP ?_ (by simp) rfl rfl (h _ ⟨?_, ?_⟩)
    · have := ev_slice (env := σ.env) (t := .bool) (n := w.bits) (vs := (ns.flatMap (bitsBE w.bits)).map AVal.bool) (l := j * w.bits) (h := (j + 1) * w.bits)
        (ev_bv (x := 1) (n := w'.bits) lk(h0) hbl) ev_ul ev_ul (Nat.mul_le_mul_right _ (by omega)) (by rw [List.length_map]; exact e1)
      rw [this, ← List.map_take, ← List.map_drop, chunk _ w.bits ns (by simp) j hj]
      rfl
    · have : ¬ ((1 : TId) = 10 + j) := by intro h; change @Eq ℕ _ _ at h; omega
      simp [TState.set, TAssignee.root, h0, this]
    · intro i hi hij
      rw [natBE_bitsBE_of_lt (hns _ (List.getElem_mem hj))]
      rcases Nat.lt_succ_iff_lt_or_eq.1 hij with h2 | rfl
      · have : ¬ ((10 + i : TId) = 10 + j) := by intro h; change @Eq ℕ _ _ at h; omega
        exact (if_neg this).trans (h1 i hi h2)
      · simp [TState.set, TAssignee.root]
  · rintro σ ⟨h0, h1⟩
    refine wp_nil (ev_array ?_)
    have := evS_range_expr (env := σ.env) (vs := ns.map (AVal.uint w)) (e := fun j => .ident (10 + j) (.uint w)) (fun j hj => by
      rw [List.getElem_map]
      have hj : j < ns.length := by simpa using hj
      exact ev_u (h1 j hj hj) (hns _ (List.getElem_mem hj)))
    rw [List.length_map] at this
    exact this
  · refine ⟨?_, fun i hi h => by omega⟩
    rw [← hbl, bitsBE_natBE]
    rfl

/-! ### Lookup tables -/

theorem ev_fsel {env : TEnv p} {x : TId} {cs : List (ZMod p)} {n i : ℕ} (h : env x = some (fieldsV cs)) (hn : cs.length = n) (hi : i < cs.length) : evalT env (fsel x n i) = .ok (.field cs[i]) :=
  ev_select (ev_ident h (hasType_fieldsV hn)) ev_ul (by simp [hi])

theorem ev_bsel {env : TEnv p} {x : TId} {cs : List Bool} {n i : ℕ} (h : env x = some (boolsV cs)) (hn : cs.length = n) (hi : i < cs.length) : evalT env (bsel x n i) = .ok (.bool cs[i]) :=
  ev_selectBits (ev_bv h hn) ev_ul hi

theorem lookup1bit_spec {b : Bool} {c0 c1 : ZMod p} : CallsTo O P lookup1bit [.bool b, fieldsV [c0, c1]] (.ok (.field (if b then c1 else c0))) := by
  rw [callsTo_iff]
  exact fwp (wp_var (ev_condF (ev_ident (v := .bool b) rfl trivial) (ev_fsel (cs := [c0, c1]) rfl rfl (by simp)) (ev_fsel (cs := [c0, c1]) rfl rfl (by simp))) (wp_nil (ev_fv rfl)))

theorem lookup2bit_spec {b0 b1 : Bool} {c0 c1 c2 c3 : ZMod p} : CallsTo O P lookup2bit [boolsV [b0, b1], fieldsV [c0, c1, c2, c3]]
    (.ok (.field (match b1, b0 with | false, false => c0 | false, true => c1 | true, false => c2 | true, true => c3))) := by
  rw [callsTo_iff]
  have hf : ∀ {σ : TState p} i (hi : i < [c0, c1, c2, c3].length), σ.env 1 = some (fieldsV [c0, c1, c2, c3]) → evalT σ.env (fsel 1 4 i) = .ok (.field [c0, c1, c2, c3][i]) :=
    fun i hi h => ev_fsel h rfl hi
  have hb : ∀ {σ : TState p} i (hi : i < [b0, b1].length), σ.env 0 = some (boolsV [b0, b1]) → evalT σ.env (bsel 0 2 i) = .ok (.bool [b0, b1][i]) := fun i hi h => ev_bsel h rfl hi
  refine fwp (wp_var (ev_add (ev_sub (hf 1 (by simp) rfl) (hf 0 (by simp) rfl)) (ev_condF (hb 1 (by simp) rfl)
    (ev_add (ev_sub (ev_sub (hf 3 (by simp) rfl) (hf 2 (by simp) rfl)) (hf 1 (by simp) rfl)) (hf 0 (by simp) rfl)) ev_fval)) ?_)
  refine wp_var (ev_sub (ev_add (ev_condF (hb 0 (by simp) rfl) (ev_fv lk(rfl)) ev_fval) (hf 0 (by simp) rfl)) (ev_condF (hb 1 (by simp) rfl) (ev_add (ev_sub ev_fval (hf 2 (by simp) rfl))
    (hf 0 (by simp) rfl)) ev_fval)) (wp_nil ?_)
  refine (ev_fv rfl).trans ?_
  cases b0 <;> cases b1 <;> simp <;> ring

theorem lookup3bitSigned_spec {b0 b1 b2 : Bool} {c0 c1 c2 c3 : ZMod p} (hP : Imports P utils) : CallsTo O P lookup3bitSigned [boolsV [b0, b1, b2], fieldsV [c0, c1, c2, c3]]
    (.ok (.field ((if b2 then -1 else 1) * match b1, b0 with | false, false => c0 | false, true => c1 | true, false => c2 | true, true => c3))) := by
  rw [callsTo_iff]
  have hb : ∀ {σ : TState p} i (hi : i < [b0, b1, b2].length), σ.env 0 = some (boolsV [b0, b1, b2]) → evalT σ.env (bsel 0 3 i) = .ok (.bool [b0, b1, b2][i]) := fun i hi h => ev_bsel h rfl hi
  refine fwp (wp_callTo (evL_cons (v := boolsV [b0, b1]) (ev_array (evS_expr (hb 0 (by simp) rfl) (evS_expr (hb 1 (by simp) rfl) evS_nil))) (evL_cons (v := fieldsV [c0, c1, c2, c3])
    (ev_ident rfl (hasType_fieldsV rfl)) evL_nil)) (hP _ _ _ _ _ rfl) lookup2bit_spec ?_)
  refine wp_var (ev_sub (ev_fv lk(rfl)) (ev_mul ev_fval (ev_condF (hb 2 (by simp) rfl) (ev_fv lk(rfl)) ev_fval))) (wp_nil ((ev_fv rfl).trans ?_))
  cases b2 <;> simp
  ring

end Zok.Typed.Std
