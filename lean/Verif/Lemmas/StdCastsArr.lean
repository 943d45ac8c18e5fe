import Verif.Lemmas.StdCasts

/-
`utils/casts`: casts between arrays of integers, and `utils/pack/u32`.
-/

set_option linter.unusedSectionVars false

namespace Zok.Typed.Std
open Abi
variable {p : ℕ} {Z : Type} [Fact p.Prime] {O : Oracle p Z} {P : Program (ZMod p)}

theorem rows_mem {rows : List (List ℕ)} {q : ℕ → Prop} (h : ∀ r ∈ rows, ∀ n ∈ r, q n) : ∀ n ∈ rows.flatten, q n := by
  intro n hn
  obtain ⟨r, hr, hn⟩ := List.mem_flatten.1 hn
  exact h r hr n hn

theorem flatten_eq {α : Type*} (rows : List (List α)) : rows.flatten = rows.flatMap id := by simp [List.flatMap]

theorem castCatArr_spec {w w' : UW} {rows : List (List ℕ)} {k N K : ℕ} (hP : Imports P utils) (hrows : ∀ r ∈ rows, r.length = k ∧ ∀ n ∈ r, n < 2 ^ w.bits) (hw : w'.bits = k * w.bits) (hk : 1 < k)
    (hK : rows.length = K) (hN : N = k * K) (hN2 : N < 2 ^ 32) :
    CallsTo O P (castCatArr w w' k N K) [uintsV w rows.flatten] (.ok (uintsV w' (rows.map fun r => natBE (r.flatMap (bitsBE w.bits))))) := by
  rw [callsTo_iff]
  have hKN : K ≤ N := by rw [hN]; exact Nat.le_mul_of_pos_left K (by omega)
  have hlen : rows.flatten.length = N := by rw [flatten_eq, length_flatMap_const id k _ (fun r hr => (hrows r hr).1), hK, hN, mul_comm]
  have hall := rows_mem fun r hr => (hrows r hr).2
  have hlt : ∀ n ∈ rows.map fun r => natBE (r.flatMap (bitsBE w.bits)), n < 2 ^ w'.bits := by
    intro n hn
    obtain ⟨r, hr, rfl⟩ := List.mem_map.1 hn
    have := natBE_lt (r.flatMap (bitsBE w.bits))
    rwa [length_flatMap_const _ w.bits _ (by simp), (hrows r hr).1, ← hw] at this
  refine fwp (wp_assert (ev_eq (ev_uv rfl hN2) (ev_umul ev_ul (ev_uv rfl (by omega)) (by rw [← hN]; exact hN2))) (fun _ => wp_var (ev_repeat ev_uval (ev_uv rfl (by omega))) ?_) (fun h => ?_))
  · refine wp_for (l := 0) (h := K) (fun j σ => σ.env 0 = some (uintsV w rows.flatten) ∧ σ.env 9 = some (.uint .b32 K) ∧
      σ.env 1 = some (uintsV w' ((rows.map fun r => natBE (r.flatMap (bitsBE w.bits))).take j ++ List.replicate (K - j) 0))) ev_ul (ev_uv rfl (by omega)) (by omega) ?_ ?_ ?_
    · simp [calleeState, castCatArr, TState.set, TState.setAll, uintsV]
    · rintro j σ - hj ⟨h0, h9, h1⟩
      have hj' : j < rows.length := by omega
      have e1 : (j + 1) * k ≤ N := by rw [hN, mul_comm]; exact Nat.mul_le_mul_left _ (by omega)
      have e2 : j * k ≤ (j + 1) * k := Nat.mul_le_mul_right _ (by omega)
      have hrow := hrows _ (List.getElem_mem hj')
      refine wp_call (cwp_here (i := castCat w w' k) (vs := [uintsV w rows[j]]) [] evL_nil (evL_cons ?_ evL_nil) (hP _ _ _ _ _ (by simp [utils, TExpr.ty, hk, hw]))
        (FWP.mono (callsTo_iff.1 (castCat_spec hP hrow.2 hrow.1 hw)) ?_))
      · have := ev_slice (env := (σ.set 2 (.uint .b32 j)).env) (t := .uint w) (n := k) (vs := rows.flatten.map (AVal.uint w)) (l := j * k) (h := (j + 1) * k)
          (ev_ident (x := 0) lk(h0) (hasType_uintsV hlen hall)) (ev_umul (w := .b32) (ev_uv (x := 2) lk(rfl) (by omega)) (ev_ul (n := k)) (by show _ < 2 ^ 32; omega))
          (ev_umul (w := .b32) (ev_uadd (ev_uv (x := 2) lk(rfl) (by omega)) (ev_ul (n := 1)) (by show _ < 2 ^ 32; omega)) (ev_ul (n := k)) (by show _ < 2 ^ 32; omega)) e2
          (by rw [List.length_map, hlen]; exact e1)
        rw [this, ← List.map_take, ← List.map_drop, flatten_eq, chunk id k rows (fun r hr => (hrows r hr).1) j hj']
        rfl
      · rintro r rfl
        refine ⟨uintsV w' ((rows.map fun r => natBE (r.flatMap (bitsBE w.bits))).take (j + 1) ++ List.replicate (K - (j + 1)) 0), ?_, wp_nil ?_⟩
        · rw [setA_select (k := j) (vs := ((rows.map fun r : List ℕ => natBE (r.flatMap (bitsBE w.bits))).take j ++ List.replicate (K - j) 0).map (AVal.uint w')) lk(h1) ?_ (ev_uv lk(rfl) (by omega)) (by simp; omega)]
          · have := set_take (rows.map fun r : List ℕ => natBE (r.flatMap (bitsBE w.bits))) 0 j (by simpa using hj')
            simp only [List.length_map, hK, List.getElem_map] at this
            rw [← List.map_set, this]
            rfl
          · refine hasType_uintsV (by simp; omega) ?_
            intro n hn
            rcases List.mem_append.1 hn with h | h
            · exact hlt _ (List.mem_of_mem_take h)
            · rw [(List.mem_replicate.1 h).2]; positivity
        · simp [TState.set, TAssignee.root, h0, h9]
    · rintro σ ⟨-, -, h1⟩
      rw [Nat.sub_self, List.replicate_zero, List.append_nil, List.take_of_length_le (by simp; omega)] at h1
      exact wp_nil (ev_ident h1 (hasType_uintsV (by simpa using hK) hlt))
  · simp [← hN] at h

/-- Assignment of the next element of an array. -/
theorem wp_next {σ : TState p} {w : UW} {out : List ℕ} {K m : ℕ} {i e : TExpr (ZMod p)} {ss : List (SStmt (ZMod p))} {R : Except Fault (TState p) → Prop} (hlen : out.length = K)
    (hout : ∀ n ∈ out, n < 2 ^ w.bits) (hm : m < out.length) (h1 : σ.env 1 = some (uintsV w (out.take m ++ List.replicate (K - m) 0))) (hi : evalT σ.env i = .ok (.uint .b32 m))
    (he : evalT σ.env e = .ok (.uint w out[m])) (h : WP O P (σ.set 1 (uintsV w (out.take (m + 1) ++ List.replicate (K - (m + 1)) 0))) ss R) :
    WP O P σ (.simple (.definition (.select (.ident 1 (.array K (.uint w))) i) e) :: ss) R := by
  refine wp_def he ?_ h
  rw [setA_select (k := m) (vs := (out.take m ++ List.replicate (K - m) 0).map (AVal.uint w)) h1 ?_ hi (by simp; omega)]
  · have := set_take out 0 m hm
    rw [hlen] at this
    rw [← List.map_set, this]
    rfl
  · refine hasType_uintsV (by simp; omega) ?_
    intro n hn
    rcases List.mem_append.1 hn with h | h
    · exact hout _ (List.mem_of_mem_take h)
    · rw [(List.mem_replicate.1 h).2]; positivity

theorem castSplitArr_spec {w w' : UW} {rows : List (List ℕ)} {k N K : ℕ} (hP : Imports P utils) (hrows : ∀ r ∈ rows, r.length = k ∧ ∀ n ∈ r, n < 2 ^ w.bits) (hw : w'.bits = k * w.bits) (hk : 1 < k)
    (hN : rows.length = N) (hK : K = k * N) (hK2 : K < 2 ^ 32) :
    CallsTo O P (castSplitArr w w' k N K) [uintsV w' (rows.map fun r => natBE (r.flatMap (bitsBE w.bits)))] (.ok (uintsV w rows.flatten)) := by
  rw [callsTo_iff]
  have hw0 : 0 < w.bits := by cases w <;> decide
  have hk64 : k ≤ 64 := by
    have : w'.bits ≤ 64 := by cases w' <;> decide
    have : k ≤ k * w.bits := Nat.le_mul_of_pos_right k hw0
    omega
  have hKN : N ≤ K := by rw [hK]; exact Nat.le_mul_of_pos_left N (by omega)
  have hlen : rows.flatten.length = K := by rw [flatten_eq, length_flatMap_const id k _ (fun r hr => (hrows r hr).1), hN, hK, mul_comm]
  have hall := rows_mem fun r hr => (hrows r hr).2
  have hlt : ∀ n ∈ rows.map fun r => natBE (r.flatMap (bitsBE w.bits)), n < 2 ^ w'.bits := by
    intro n hn
    obtain ⟨r, hr, rfl⟩ := List.mem_map.1 hn
    have := natBE_lt (r.flatMap (bitsBE w.bits))
    rwa [length_flatMap_const _ w.bits _ (by simp), (hrows r hr).1, ← hw] at this
  refine fwp (wp_assert (ev_eq (ev_uv rfl hK2) (ev_umul ev_ul (ev_uv rfl (by omega)) (by rw [← hK]; exact hK2))) (fun _ => wp_var (ev_repeat ev_uval (ev_uv rfl (by omega))) ?_) (fun h => ?_))
  · refine wp_for (l := 0) (h := N) (fun i σ => σ.env 0 = some (uintsV w' (rows.map fun r => natBE (r.flatMap (bitsBE w.bits)))) ∧
        σ.env 1 = some (uintsV w (rows.flatten.take (i * k) ++ List.replicate (K - i * k) 0))) ev_ul (ev_uv rfl (by omega)) (by omega) ?_ ?_ ?_
    · simp [calleeState, castSplitArr, TState.set, TState.setAll, uintsV]
    · rintro i σ - hi ⟨h0, h1⟩
      have hi' : i < rows.length := by omega
      have e1 : i * k + k ≤ K := by
        have : (i + 1) * k ≤ N * k := Nat.mul_le_mul_right _ (by omega)
        rw [Nat.add_mul, Nat.one_mul] at this
        rw [hK, mul_comm k N]
        exact this
      have hrow := hrows _ (List.getElem_mem hi')
      have hel : ∀ j (hj : j < k), rows[i][j]'(by omega) = rows.flatten[i * k + j]'(by omega) := by
        intro j hj
        have := chunk id k rows (fun r hr => (hrows r hr).1) i hi'
        have h4 : rows[i][j]? = rows.flatten[i * k + j]? := by
          rw [← id_def rows[i], ← this, List.getElem?_drop, List.getElem?_take, if_pos (by rw [Nat.add_mul, Nat.one_mul]; omega), flatten_eq]
        rw [List.getElem?_eq_getElem (by omega), List.getElem?_eq_getElem (by omega)] at h4
        exact Option.some.inj h4
      refine wp_callTo (evL_cons (ev_select (v := .uint w' (natBE (rows[i].flatMap (bitsBE w.bits)))) (ev_ident lk(h0) (hasType_uintsV (by simpa using hN) hlt)) (ev_uv lk(rfl) (by omega)) (by simp [hi'])) evL_nil)
        (hP _ _ _ _ _ (by simp [utils, TExpr.ty, hk, hw])) (castSplit_spec hP hrow.2 hrow.1 hw) ?_
      split
      · rename_i hk2
        subst hk2
        have hsel : ∀ {env : TEnv p} j (hj : j < 2), env 3 = some (uintsV w rows[i]) → evalT env (.select (.uint w) (.ident 3 (.array 2 (.uint w))) (ul j)) = .ok (.uint w (rows.flatten[i * 2 + j]'(by omega))) := by
          intro env j hj h
          rw [← hel j hj]
          exact ev_select (ev_ident h (hasType_uintsV hrow.1 hrow.2)) ev_ul (by simp [hrow.1, hj])
        refine wp_next (m := i * 2) hlen hall (by omega) h1 (ev_umul (ev_uv lk(rfl) (by omega)) ev_ul (by show _ < 2 ^ 32; omega)) (hsel 0 (by omega) rfl)
          (wp_next (m := i * 2 + 1) hlen hall (by omega) rfl (ev_uadd (ev_umul (ev_uv lk(rfl) (by omega)) ev_ul (by show _ < 2 ^ 32; omega)) ev_ul (by show _ < 2 ^ 32; omega)) (hsel 1 (by omega) rfl) (wp_nil ?_))
        rw [show (i + 1) * 2 = i * 2 + 1 + 1 by omega]
        simp [TState.set, h0]
      · refine wp_for (l := 0) (h := k) (fun j σ => σ.env 0 = some (uintsV w' (rows.map fun r => natBE (r.flatMap (bitsBE w.bits)))) ∧ σ.env 2 = some (.uint .b32 i) ∧ σ.env 3 = some (uintsV w rows[i]) ∧
            σ.env 1 = some (uintsV w (rows.flatten.take (i * k + j) ++ List.replicate (K - (i * k + j)) 0)))
          ev_ul ev_ul (by omega) ?_ ?_ ?_
        · simp [TState.set, h0, h1]
        · rintro j σ' - hj ⟨h0, h2, h3, h1⟩
          refine wp_next (m := i * k + j) hlen hall (by omega) h1 (ev_uadd (ev_umul (ev_uv lk(h2) (by omega)) ev_ul (by show _ < 2 ^ 32; omega)) (ev_uv lk(rfl) (by omega)) (by show _ < 2 ^ 32; omega))
            ?_ (wp_nil ?_)
          · rw [← hel j hj]
            exact ev_select (ev_ident lk(h3) (hasType_uintsV hrow.1 hrow.2)) (ev_uv lk(rfl) (by omega)) (by simp [hrow.1, hj])
          · simp [TState.set, h0, h2, h3, Nat.add_assoc]
        · rintro σ' ⟨h0, h2, h3, h1⟩
          refine wp_nil ⟨h0, ?_⟩
          rw [Nat.add_mul, Nat.one_mul]
          exact h1
    · rintro σ ⟨-, h1⟩
      rw [show N * k = K by rw [hK, mul_comm], Nat.sub_self, List.replicate_zero, List.append_nil, List.take_of_length_le (by omega)] at h1
      exact wp_nil (ev_ident h1 (hasType_uintsV hlen hall))
  · simp [← hK] at h

theorem packU32_spec {ns : List ℕ} {N : ℕ} (hP : Imports P utils) (hns : ∀ n ∈ ns, n < 2 ^ 32) (hN : ns.length = N) (hN2 : N * 32 < 2 ^ 32) :
    CallsTo O P (packU32 N) [uintsV .b32 ns] (.ok (.field (natBE (ns.flatMap (bitsBE 32)) : ℕ))) := by
  rw [callsTo_iff]
  have hbl : (ns.flatMap (bitsBE 32)).length = N * 32 := by rw [length_flatMap_const _ 32 _ (by simp), hN]
  refine fwp (wp_callTo (evL_cons (ev_ident rfl (hasType_uintsV hN hns)) evL_nil) (hP _ _ _ _ _ rfl) (castToBitsArr_spec (w := .b32) (K := N * 32) hP hns hN (by rw [mul_comm]; rfl) hN2) ?_)
  exact wp_callTo (evL_cons (ev_bv rfl hbl) evL_nil) (hP _ _ _ _ _ rfl) (pack_spec hbl hN2) (wp_nil (ev_fv rfl))

/-- Bits as integers. -/
theorem exists_uints (w : ℕ) : ∀ (K : ℕ) (bl : List Bool), bl.length = K * w → ∃ ns : List ℕ, ns.length = K ∧ (∀ n ∈ ns, n < 2 ^ w) ∧ bl = ns.flatMap (bitsBE w)
  | 0, bl, h => ⟨[], rfl, by simp, by simpa using h⟩
  | K + 1, bl, h => by
    rw [Nat.add_mul, Nat.one_mul] at h
    obtain ⟨ns, h1, h2, h3⟩ := exists_uints w K (bl.drop w) (by rw [List.length_drop]; omega)
    have hl : (bl.take w).length = w := by rw [List.length_take]; omega
    refine ⟨natBE (bl.take w) :: ns, by simp [h1], ?_, ?_⟩
    · intro n hn
      rcases List.mem_cons.1 hn with rfl | hn
      · have := natBE_lt (bl.take w)
        rwa [hl] at this
      · exact h2 n hn
    · rw [List.flatMap_cons, ← h3]
      have := bitsBE_natBE (bl.take w)
      rw [hl] at this
      rw [this, List.take_append_drop]

theorem unpackU32x4_spec {x : ZMod p} (hP : Imports P utils) (hO : Unpacks O) (hC : Canonical O) (hp : p ≠ 2) {v : AVal (ZMod p)} :
    Calls O P unpackU32x4 [.field x] (.ok v) ↔ ∃ ns : List ℕ, ns.length = 4 ∧ (∀ n ∈ ns, n < 2 ^ 32) ∧ x.val = natBE (ns.flatMap (bitsBE 32)) ∧ v = uintsV .b32 ns := by
  have e0 : (calleeState unpackU32x4 [.field x]).env 0 = some (.field x) := rfl
  rw [calls_ok]
  generalize calleeState unpackU32x4 [.field x] = σ0 at e0
  have hcall : ∀ v, ExecCall O P σ0 (.array 128 .bool) kUnpack [] [fv 0] (.ok v) ↔ x.val < 2 ^ 128 ∧ v = boolsV (bitsBE 128 x.val) := by
    intro r
    rw [call_here (i := unpack 128) [] evL_nil (evL_cons (ev_fv e0) evL_nil) (hP _ _ _ _ _ rfl), unpack_spec hP hO hC hp (by norm_num)]
  obtain ⟨ms, hm1, hm2, hm3⟩ := exists_uints 32 4 (bitsBE 128 x.val) (by simp)
  have hcast : ∀ v, ExecCall O P (σ0.set 1 (boolsV (bitsBE 128 x.val))) (.array 4 (.uint .b32)) kCast [] [bv 1 128] (.ok v) ↔ v = uintsV .b32 ms := by
    intro v
    rw [call_here (i := castFromBitsArr .b32 128 4) [] evL_nil (evL_cons (ev_bv rfl (by simp)) evL_nil) (hP _ _ _ _ _ rfl), hm3]
    have h := castFromBitsArr_spec (O := O) (w := .b32) (N := 128) hP hm2 hm1 rfl (by norm_num) (.ok v)
    rw [Except.ok.injEq] at h
    exact h
  simp only [show (unpackU32x4 (p := p)).body = [call 1 (.array 128 .bool) kUnpack [fv 0], call 2 (.array 4 (.uint .b32)) kCast [bv 1 128]] from rfl, call, exec_call_ok, hcall, exec_nil,
    Except.ok.injEq]
  have hret : evalT ((σ0.set 1 (boolsV (bitsBE 128 x.val))).set 2 (uintsV .b32 ms)).env (unpackU32x4 (p := p)).ret = .ok (uintsV .b32 ms) := ev_ident rfl (hasType_uintsV hm1 hm2)
  constructor
  · rintro ⟨σ, ⟨v1, ⟨h1, rfl⟩, v2, h2, rfl⟩, h3⟩
    rw [hcast] at h2
    subst h2
    rw [hret] at h3
    refine ⟨ms, hm1, hm2, ?_, (Except.ok.inj h3).symm⟩
    rw [← hm3, natBE_bitsBE_of_lt h1]
  · rintro ⟨ns, h1, h2, h3, rfl⟩
    have hl : (ns.flatMap (bitsBE 32)).length = 128 := by rw [length_flatMap_const _ 32 _ (by simp), h1]
    have hx : x.val < 2 ^ 128 := by rw [h3, ← hl]; exact natBE_lt _
    have hns : ns = ms := by
      have h4 : ns.flatMap (bitsBE 32) = ms.flatMap (bitsBE 32) := by
        rw [← hm3, h3, ← hl, bitsBE_natBE]
      refine List.ext_getElem (by omega) fun i hi hi' => ?_
      have h5 := chunk (bitsBE 32) 32 ns (by simp) i hi
      rw [h4, chunk (bitsBE 32) 32 ms (by simp) i hi'] at h5
      have h6 := congrArg natBE h5
      rw [natBE_bitsBE_of_lt (hm2 _ (List.getElem_mem hi')), natBE_bitsBE_of_lt (h2 _ (List.getElem_mem hi))] at h6
      exact h6.symm
    subst hns
    exact ⟨_, ⟨_, ⟨hx, rfl⟩, _, (hcast _).2 rfl, rfl⟩, hret⟩

end Zok.Typed.Std
