import Verif.Lemmas.StdSha

/-
`hashes/sha256`: padding.
-/

set_option linter.unusedSectionVars false

namespace Zok.Typed.Std
open Abi Sha256
variable {p : ℕ} {Z : Type} [Fact p.Prime] {O : Oracle p Z} {P : Program (ZMod p)}

/-- Assignment to an element of a row. -/
theorem setA_select2 {env : TEnv p} {x : TId} {t : CType} {rows : List (AVal (ZMod p))} {vs : List (AVal (ZMod p))} {i j : TExpr (ZMod p)} {k l : ℕ} {v : AVal (ZMod p)} (hx : env x = some (.array rows)) (ht : HasType t (.array rows))
    (hi : evalT env i = .ok (.uint .b32 k)) (hj : evalT env j = .ok (.uint .b32 l)) (hk : rows[k]? = some (.array vs)) (hl : l < vs.length) :
    setA env (.select (.select (.ident x t) i) j) v = .ok (.array (rows.set k (.array (vs.set l v)))) := by
  have hk' : k < rows.length := by
    by_contra h
    rw [List.getElem?_eq_none (by omega)] at hk
    cases hk
  have hk2 : rows[k] = .array vs := by rw [List.getElem?_eq_getElem hk'] at hk; exact Option.some.inj hk
  simp [setA, getA, ev_ident hx ht, hi, hj, bind, Except.bind, asArray, asUint, selectVal, hk', hk2, hl]

/-- A word of the padded message. -/
def cell (bl : List Bool) (a b : ℕ) : Word := BitVec.ofNat 32 (natBE ((bl.drop (512 * a + 32 * b)).take 32))

/-- The first `t` words of the blocks, followed by zeros. -/
def partRow (bl : List Bool) (t a : ℕ) : List Word := (List.range 16).map fun b => if 16 * a + b < t then cell bl a b else 0
def partRows (bl : List Bool) (M t : ℕ) : List (List Word) := (List.range M).map (partRow bl t)

theorem partRows_zero (bl : List Bool) (M : ℕ) : partRows bl M 0 = List.replicate M (List.replicate 16 0) := by
  refine List.ext_getElem (by simp [partRows]) fun i h1 h2 => List.ext_getElem (by simp [partRows, partRow]) fun j h3 h4 => ?_
  simp [partRows, partRow]

theorem partRows_full (bl : List Bool) (M : ℕ) (h : bl.length = M * 512) : partRows bl M (16 * M) = parse bl := by
  rw [parse, h, Nat.mul_div_cancel _ (by omega), partRows]
  refine List.map_congr_left fun a ha => ?_
  have ha := List.mem_range.1 ha
  have hl : ((bl.drop (512 * a)).take 512).length = 512 := by simp; omega
  rw [partRow, words, hl]
  refine List.map_congr_left fun b hb => ?_
  have hb := List.mem_range.1 hb
  rw [if_pos (by omega), cell, List.drop_take, List.drop_drop, List.take_take, min_eq_left (by omega)]

theorem partRows_set (bl : List Bool) {M a b : ℕ} (hb : b < 16) :
    (partRows bl M (16 * a + b)).set a ((partRow bl (16 * a + b) a).set b (cell bl a b)) = partRows bl M (16 * a + b + 1) := by
  refine List.ext_getElem (by simp [partRows]) fun i h1 h2 => ?_
  have hi : i < M := by simpa [partRows] using h2
  simp only [partRows, List.getElem_set, List.getElem_map, List.getElem_range]
  split
  · rename_i e
    subst e
    refine List.ext_getElem (by simp [partRow]) fun j h3 h4 => ?_
    have hj : j < 16 := by simpa [partRow] using h4
    simp only [partRow, List.getElem_set, List.getElem_map, List.getElem_range]
    split
    · rename_i e
      subst e
      rw [if_pos (by omega)]
    · rename_i e
      by_cases h : 16 * a + j < 16 * a + b
      · rw [if_pos h, if_pos (by omega)]
      · rw [if_neg h, if_neg (by omega)]
  · rename_i e
    refine List.map_congr_left fun j hj => ?_
    have hj := List.mem_range.1 hj
    by_cases h : 16 * i + j < 16 * a + b
    · rw [if_pos h, if_pos (by omega)]
    · rw [if_neg h, if_neg (by omega)]

theorem hasType_rows {rows : List (List Word)} {N : ℕ} (hN : rows.length = N) (hM : ∀ M ∈ rows, M.length = 16) : HasType (p := p) (.array N (u32s 16)) (.array (rows.map wordsV)) := by
  simp only [HasType, List.length_map, hN, true_and, List.mem_map]
  rintro v ⟨M, hM', rfl⟩
  exact hasType_wordsV (hM M hM')

theorem partRows_length (bl : List Bool) (M t : ℕ) : (partRows bl M t).length = M := by simp [partRows]
theorem partRows_mem {bl : List Bool} {M t : ℕ} : ∀ r ∈ partRows bl M t, r.length = 16 := by
  intro r hr
  obtain ⟨a, -, rfl⟩ := List.mem_map.1 hr
  simp [partRow]

/-- The padded message of `pad`. -/
def zokPad (m : List Bool) : List Bool := m ++ true :: (List.replicate (512 - (m.length + 65) % 512 + 32) false ++ bitsBE 32 m.length)

theorem zokPad_length (m : List Bool) : (zokPad m).length = ((m.length + 65) / 512 + 1) * 512 := by
  simp only [zokPad, List.length_append, List.length_cons, List.length_replicate, length_bitsBE]
  omega

theorem shaPad_spec (hU : Imports P utils) {m : List Bool} {L M : ℕ} (hL : m.length = L) (hM : M = (L + 65) / 512 + 1) (h32 : L + 577 < 2 ^ 32) :
    CallsTo O P (shaPad L M) [boolsV m] (.ok (.array ((parse (zokPad m)).map wordsV))) := by
  rw [callsTo_iff]
  have hlen : (zokPad m).length = M * 512 := by rw [zokPad_length, hL, hM]
  have hM32 : M * 512 < 2 ^ 32 := by omega
  have hbits : ∀ {env : TEnv p}, evalT env (ul 0) = .ok (.uint .b32 0) := ev_ul
  have hb : UW.b32.bits = 32 := rfl
  refine fwp (wp_var (v := .uint .b32 (L + 65)) ?_ ?_)
  · exact ev_uadd (w := .b32) (a := L + 64) (b := 1) (ev_uadd (w := .b32) (a := L) (b := 64) (ev_uv (x := 8) (n := L) lk(rfl) (by omega)) ev_ul (by rw [hb]; omega)) ev_ul (by rw [hb]; omega)
  refine wp_assert (ev_eq (v := .uint .b32 ((L + 65) / 512 + 1)) (ev_uadd (w := .b32) (ev_ubin (c := (L + 65) / 512) (ev_uv lk(rfl) (by omega)) ev_ul (by simp [UOp.eval])) ev_ul (by rw [hb]; omega)) (ev_uv (n := M) lk(rfl) (by omega)))
    (fun _ => ?_) (fun h => by simp [hM] at h)
  refine wp_var (v := .uint .b32 ((L + 65) % 512)) (ev_ubin (ev_uv (n := L + 65) lk(rfl) (by omega)) ev_ul (by simp [UOp.eval])) ?_
  refine wp_var (v := .uint .b32 (512 - (L + 65) % 512)) (ev_usub (w := .b32) ev_ul (ev_uv lk(rfl) (by omega)) (by omega) (by rw [hb]; omega)) ?_
  refine wp_callTo (vs := [.uint .b32 L]) (evL_cons (ev_uv lk(rfl) (by omega)) evL_nil) (hU _ _ _ _ _ rfl) (castToBits_spec (w := .b32) (n := L) hU (by rw [hb]; omega)) ?_
  refine wp_var (v := boolsV (zokPad m)) ?_ ?_
  · refine (ev_array (evS_spread (ev_bv (bl := m) lk(rfl) hL) (evS_expr ev_bval (evS_spread (ev_repeat ev_bval (ev_uadd (w := .b32) (ev_uv (n := 512 - (L + 65) % 512) lk(rfl) (by omega)) ev_ul (by rw [hb]; omega)))
      (evS_spread (ev_bv (bl := bitsBE 32 L) lk(rfl) (by simp)) evS_nil))))).trans ?_
    simp [boolsV, zokPad, hL]
  refine wp_var (v := .array ((partRows (zokPad m) M (16 * 0)).map wordsV)) ?_ ?_
  · refine (ev_repeat (ev_repeat ev_ul ev_ul) (ev_uv (n := M) lk(rfl) (by omega))).trans ?_
    rw [Nat.mul_zero, partRows_zero]
    simp [wordsV, wordV]
  refine wp_for (l := 0) (h := M) (fun i σ => σ.env 5 = some (boolsV (zokPad m)) ∧ σ.env 6 = some (.array ((partRows (zokPad m) M (16 * i)).map wordsV))) ev_ul (ev_uv lk(rfl) (by omega)) (by omega) ⟨rfl, rfl⟩ ?_ ?_
  · rintro i σ - hi ⟨e5, e6⟩
    refine wp_for (l := 0) (h := 16) (fun j σ => σ.env 5 = some (boolsV (zokPad m)) ∧ σ.env 7 = some (.uint .b32 i) ∧ σ.env 6 = some (.array ((partRows (zokPad m) M (16 * i + j)).map wordsV))) ev_ul ev_ul (by omega)
      ⟨e5, rfl, e6⟩ ?_ (fun σ' h => wp_nil ⟨h.1, h.2.2⟩)
    clear e5 e6 σ
    rintro j σ - hj ⟨e5, e7, e6⟩
    have b0 : i * 512 + j * 32 + 32 ≤ M * 512 := by omega
    have b1 : i * 512 + j * 32 + 32 < 2 ^ 32 := lt_of_le_of_lt b0 hM32
    have b2 : i * 512 + j * 32 < 2 ^ 32 := lt_of_le_of_lt (Nat.le_add_right _ _) b1
    have b3 : i * 512 < 2 ^ 32 := lt_of_le_of_lt (Nat.le_add_right _ _) b2
    have b4 : j * 32 < 2 ^ 32 := lt_of_le_of_lt (Nat.le_add_left _ _) b2
    refine wp_var (v := .uint .b32 (i * 512 + j * 32)) (ev_uadd (w := .b32) (ev_umul (w := .b32) (a := i) (b := 512) (ev_uv (x := 7) lk(e7) (by omega)) ev_ul b3) (ev_umul (w := .b32) (a := j) (b := 32) (ev_uv (x := 10) lk(rfl) (by omega)) ev_ul b4)
      b2) ?_
    refine wp_var (v := .uint .b32 (i * 512 + j * 32 + 32)) (ev_uadd (w := .b32) (a := i * 512 + j * 32) (b := 32) (ev_uv (x := 11) lk(rfl) b2) ev_ul b1) ?_
    have hsl : (((zokPad m).take (i * 512 + j * 32 + 32)).drop (i * 512 + j * 32)) = ((zokPad m).drop (512 * i + 32 * j)).take 32 := by
      rw [List.drop_take, show i * 512 + j * 32 = 512 * i + 32 * j by ring, Nat.add_sub_cancel_left]
    have hl32 : (((zokPad m).drop (512 * i + 32 * j)).take 32).length = 32 := by simp [hlen]; omega
    refine wp_call (cwp_here [] evL_nil (vs := [boolsV (((zokPad m).drop (512 * i + 32 * j)).take 32)]) (evL_cons ?_ evL_nil) (hU _ _ _ _ _ rfl) (FWP.mono (callsTo_iff.1 (castFromBits_spec (w := .b32) hU hl32)) ?_))
    · have := ev_slice (env := ((((σ.set 10 (.uint .b32 j)).set 11 (.uint .b32 (i * 512 + j * 32))).set 12 (.uint .b32 (i * 512 + j * 32 + 32)))).env) (t := .bool) (n := 32) (vs := (zokPad m).map AVal.bool) (l := i * 512 + j * 32) (h := i * 512 + j * 32 + 32)
        (ev_bv (x := 5) (n := M * 512) lk(e5) hlen) (ev_uv (x := 11) lk(rfl) b2) (ev_uv (x := 12) lk(rfl) b1) (Nat.le_add_right _ _) (by rw [List.length_map, hlen]; exact b0)
      rw [this, ← List.map_take, ← List.map_drop, hsl]
      rfl
    · rintro r rfl
      refine ⟨.array ((partRows (zokPad m) M (16 * i + j + 1)).map wordsV), ?_, wp_nil ⟨e5, e7, rfl⟩⟩
      have hv : (AVal.uint .b32 (natBE (((zokPad m).drop (512 * i + 32 * j)).take 32)) : AVal (ZMod p)) = wordV (cell (zokPad m) i j) := by
        have := natBE_lt (((zokPad m).drop (512 * i + 32 * j)).take 32)
        rw [hl32] at this
        rw [wordV, cell, BitVec.toNat_ofNat, Nat.mod_eq_of_lt this]
      rw [hv, setA_select2 (rows := (partRows (zokPad m) M (16 * i + j)).map wordsV) (vs := (partRow (zokPad m) (16 * i + j) i).map wordV) (k := i) (l := j) lk(e6) (hasType_rows (partRows_length _ _ _) partRows_mem)
        (ev_uv lk(e7) (by omega)) (ev_uv lk(rfl) (by omega)) ?_ (by simp [partRow]; omega)]
      · rw [← partRows_set _ hj, List.map_set, wordsV, List.map_set]
      · simp [partRows, hi, wordsV]
  · rintro σ ⟨-, e6⟩
    rw [← partRows_full _ M hlen]
    exact wp_nil (ev_ident e6 (hasType_rows (partRows_length _ _ _) partRows_mem))

theorem parse_length {bl : List Bool} : (parse bl).length = bl.length / 512 := by simp [parse]
theorem parse_mem {bl : List Bool} : ∀ M ∈ parse bl, M.length = 16 := by
  intro M hM
  obtain ⟨i, hi, rfl⟩ := List.mem_map.1 hM
  have := List.mem_range.1 hi
  have h1 : ((bl.drop (512 * i)).take 512).length = 512 := by simp; omega
  rw [words, List.length_map, List.length_range, h1]

theorem sha256Padded_spec (hS : Imports P sha) (hU : Imports P utils) {m : List Bool} {N : ℕ} (hN : m.length = N) (h32 : N + 577 < 2 ^ 32) :
    CallsTo O P (sha256Padded N) [boolsV m] (.ok (wordsV (blocks (parse (zokPad m))))) := by
  rw [callsTo_iff]
  have hl : (parse (zokPad m)).length = (N + 64 + 1) / 512 + 1 := by rw [parse_length, zokPad_length, hN, Nat.mul_div_cancel _ (by omega)]
  refine fwp (wp_var (v := .uint .b32 ((N + 64 + 1) / 512 + 1)) ?_ ?_)
  · exact ev_uadd (w := .b32) (ev_ubin (c := (N + 64 + 1) / 512) (ev_uadd (w := .b32) (ev_uadd (w := .b32) (ev_uv lk(rfl) (by omega)) ev_ul (by show _ < 2 ^ 32; omega)) ev_ul (by show _ < 2 ^ 32; omega)) ev_ul (by simp [UOp.eval])) ev_ul (by show _ < 2 ^ 32; omega)
  refine wp_callTo (vs := [boolsV m]) (evL_cons (ev_bv lk(rfl) hN) evL_nil) (hS _ _ _ _ _ rfl) (shaPad_spec hU hN rfl h32) ?_
  refine wp_callTo (evL_cons (ev_ident lk(rfl) (hasType_rows hl parse_mem)) evL_nil) (hS _ _ _ _ _ rfl) (sha256_spec hS hl (by omega) parse_mem) (wp_nil ?_)
  exact ev_ws lk(rfl) (blocks_length _)

/-- The padding is that of the standard unless the message leaves exactly 65 bits of its last block. -/
theorem zokPad_eq {m : List Bool} (h : m.length % 512 ≠ 447) (h32 : m.length < 2 ^ 32) : zokPad m = pad m := by
  have h1 : bitsBE 64 m.length = List.replicate 32 false ++ bitsBE 32 m.length := bitsBE_pad h32 (by omega)
  have h2 : 512 - (m.length + 65) % 512 + 32 = zeros m.length + 32 := by rw [zeros]; omega
  rw [zokPad, pad, h1, h2, List.replicate_add]
  simp only [List.append_assoc, List.cons_append, List.nil_append]

/-- Otherwise there are 512 more zeros. -/
theorem zokPad_long {m : List Bool} (h : m.length % 512 = 447) (h32 : m.length < 2 ^ 32) : zokPad m = m ++ [true] ++ List.replicate 512 false ++ bitsBE 64 m.length := by
  have h1 : bitsBE 64 m.length = List.replicate 32 false ++ bitsBE 32 m.length := bitsBE_pad h32 (by omega)
  have h2 : 512 - (m.length + 65) % 512 + 32 = 512 + 32 := by omega
  rw [zokPad, h1, h2, List.replicate_add]
  simp only [List.append_assoc, List.cons_append, List.nil_append]

/-! ### Bytes -/

theorem sha256Bytes_spec (hS : Imports P sha) (hU : Imports P utils) {ns : List ℕ} {N : ℕ} (hN : ns.length = N) (hns : ∀ n ∈ ns, n < 2 ^ 8) (h32 : 8 * N + 577 < 2 ^ 32) :
    CallsTo O P (sha256Bytes N) [uintsV .b8 ns] (.ok (wordsV (Sha256.sha256 (byteBits ns)))) := by
  rw [callsTo_iff]
  have hb : UW.b32.bits = 32 := rfl
  have hbl : (byteBits ns).length = N * 8 := by rw [byteBits, length_flatMap_const _ 8 _ (by simp), hN]
  refine fwp (wp_var (v := .uint .b32 (N * 8)) (ev_umul (w := .b32) (a := N) (b := 8) (ev_uv (x := 9) lk(rfl) (by omega)) ev_ul (by rw [hb]; omega)) ?_)
  refine wp_var (ev_repeat ev_bval (ev_uv (n := N * 8) lk(rfl) (by omega))) ?_
  refine wp_for (l := 0) (h := N) (fun i σ => σ.env 0 = some (uintsV .b8 ns) ∧ σ.env 2 = some (boolsV ((byteBits ns).take (i * 8) ++ List.replicate (N * 8 - i * 8) false))) ev_ul (ev_uv lk(rfl) (by omega)) (by omega) ?_ ?_ ?_
  · refine ⟨rfl, ?_⟩
    simp [TState.set, boolsV]
  · rintro i σ - hi ⟨e0, e2⟩
    have hi' : i < ns.length := by omega
    refine wp_callTo (vs := [.uint .b8 ns[i]]) (evL_cons (ev_select (ev_ident lk(e0) (hasType_uintsV hN hns)) (ev_uv lk(rfl) (by omega)) (by simp [hi'])) evL_nil) (hU _ _ _ _ _ rfl)
      (castToBits_spec (w := .b8) hU (hns _ (List.getElem_mem hi'))) ?_
    refine wp_for (l := 0) (h := 8) (fun j σ => σ.env 0 = some (uintsV .b8 ns) ∧ σ.env 3 = some (.uint .b32 i) ∧ σ.env 4 = some (boolsV (bitsBE 8 ns[i])) ∧
      σ.env 2 = some (boolsV ((byteBits ns).take (i * 8 + j) ++ List.replicate (N * 8 - (i * 8 + j)) false))) ev_ul ev_ul (by omega) ⟨e0, rfl, rfl, e2⟩ ?_ ?_
    · clear e0 e2 σ
      rintro j σ - hj ⟨e0, e3, e4, e2⟩
      have hlt : i * 8 + j < (byteBits ns).length := by omega
      have hel : (bitsBE 8 ns[i])[j]'(by simp; omega) = (byteBits ns)[i * 8 + j] := by
        have := chunk (bitsBE 8) 8 ns (by simp) i hi'
        have h4 : (bitsBE 8 ns[i])[j]? = (byteBits ns)[i * 8 + j]? := by
          rw [← this, byteBits, List.getElem?_drop, List.getElem?_take, if_pos (by omega)]
        rw [List.getElem?_eq_getElem (by simp; omega), List.getElem?_eq_getElem hlt] at h4
        exact Option.some.inj h4
      have hst := set_take (byteBits ns) false (i * 8 + j) hlt
      refine wp_def (v := .bool (byteBits ns)[i * 8 + j]) (u := boolsV ((byteBits ns).take (i * 8 + j + 1) ++ List.replicate (N * 8 - (i * 8 + j + 1)) false)) ?_ ?_ (wp_nil ⟨e0, e3, e4, rfl⟩)
      · rw [← hel]
        exact ev_selectBits (ev_bv (x := 4) lk(e4) (by simp)) (ev_uv lk(rfl) (by omega)) (by simp; omega)
      · refine (setA_select (t := .array (N * 8) .bool) (k := i * 8 + j) (vs := ((byteBits ns).take (i * 8 + j) ++ List.replicate (N * 8 - (i * 8 + j)) false).map AVal.bool) lk(e2) (hasType_boolsV (by simp [hbl]; omega))
          (ev_uadd (w := .b32) (a := i * 8) (b := j) (ev_umul (w := .b32) (a := i) (b := 8) (ev_uv (x := 3) lk(e3) (by omega)) ev_ul (by rw [hb]; omega)) (ev_uv (x := 5) lk(rfl) (by omega)) (by rw [hb]; omega)) (by simp [hbl]; omega)).trans ?_
        rw [← List.map_set, ← hbl, hst]
        rfl
    · rintro σ' ⟨e0, -, -, e2⟩
      refine wp_nil ⟨e0, ?_⟩
      rwa [Nat.add_mul, Nat.one_mul]
  · rintro σ ⟨-, e2⟩
    rw [Nat.sub_self, List.replicate_zero, List.append_nil, List.take_of_length_le (by omega)] at e2
    have := sha256Padded_spec (O := O) hS hU hbl (by omega)
    rw [zokPad_eq (by omega) (by omega)] at this
    exact wp_callTo (evL_cons (ev_bv lk(e2) hbl) evL_nil) (hS _ _ _ _ _ rfl) this (wp_nil (ev_ws lk(rfl) (blocks_length _)))

/-! ### Fixed sizes -/

theorem wordsV_append (a b : List Word) : (.array (a.map wordV ++ (b.map wordV ++ [])) : AVal (ZMod p)) = wordsV (a ++ b) := by simp [wordsV]

theorem sha512bit_spec (hS : Imports P sha) {a b : List Word} (ha : a.length = 8) (hb : b.length = 8) : CallsTo O P sha512bit [wordsV a, wordsV b] (.ok (wordsV (blocks [a ++ b]))) := by
  rw [callsTo_iff]
  refine fwp (wp_callTo (vs := [.array ([a ++ b].map wordsV)]) (evL_cons ?_ evL_nil) (hS _ _ _ _ _ rfl) (sha256_spec hS (Ms := [a ++ b]) rfl (by omega) (by simp [ha, hb])) (wp_nil (ev_ws lk(rfl) (blocks_length _))))
  refine (ev_array (evS_expr (ev_array (evS_spread (ev_ws (n := 8) lk(rfl) ha) (evS_spread (ev_ws (n := 8) lk(rfl) hb) evS_nil))) evS_nil)).trans ?_
  simp [wordsV]

theorem sha1024bit_spec (hS : Imports P sha) {a b c d : List Word} (ha : a.length = 8) (hb : b.length = 8) (hc : c.length = 8) (hd : d.length = 8) :
    CallsTo O P sha1024bit [wordsV a, wordsV b, wordsV c, wordsV d] (.ok (wordsV (blocks [a ++ b, c ++ d]))) := by
  rw [callsTo_iff]
  refine fwp (wp_callTo (vs := [.array ([a ++ b, c ++ d].map wordsV)]) (evL_cons ?_ evL_nil) (hS _ _ _ _ _ rfl) (sha256_spec hS (Ms := [a ++ b, c ++ d]) rfl (by omega) (by simp [ha, hb, hc, hd])) (wp_nil (ev_ws lk(rfl) (blocks_length _))))
  refine (ev_array (evS_expr (ev_array (evS_spread (ev_ws (n := 8) lk(rfl) ha) (evS_spread (ev_ws (n := 8) lk(rfl) hb) evS_nil)))
    (evS_expr (ev_array (evS_spread (ev_ws (n := 8) lk(rfl) hc) (evS_spread (ev_ws (n := 8) lk(rfl) hd) evS_nil))) evS_nil))).trans ?_
  simp [wordsV]

theorem sha1536bit_spec (hS : Imports P sha) {a b c d e f : List Word} (ha : a.length = 8) (hb : b.length = 8) (hc : c.length = 8) (hd : d.length = 8) (he : e.length = 8) (hf : f.length = 8) :
    CallsTo O P sha1536bit [wordsV a, wordsV b, wordsV c, wordsV d, wordsV e, wordsV f] (.ok (wordsV (blocks [a ++ b, c ++ d, e ++ f]))) := by
  rw [callsTo_iff]
  refine fwp (wp_callTo (vs := [.array ([a ++ b, c ++ d, e ++ f].map wordsV)]) (evL_cons ?_ evL_nil) (hS _ _ _ _ _ rfl) (sha256_spec hS (Ms := [a ++ b, c ++ d, e ++ f]) rfl (by omega) (by simp [ha, hb, hc, hd, he, hf])) (wp_nil (ev_ws lk(rfl) (blocks_length _))))
  refine (ev_array (evS_expr (ev_array (evS_spread (ev_ws (n := 8) lk(rfl) ha) (evS_spread (ev_ws (n := 8) lk(rfl) hb) evS_nil)))
    (evS_expr (ev_array (evS_spread (ev_ws (n := 8) lk(rfl) hc) (evS_spread (ev_ws (n := 8) lk(rfl) hd) evS_nil)))
    (evS_expr (ev_array (evS_spread (ev_ws (n := 8) lk(rfl) he) (evS_spread (ev_ws (n := 8) lk(rfl) hf) evS_nil))) evS_nil)))).trans ?_
  simp [wordsV]

theorem wordBits_length (xs : List Word) : (wordBits xs).length = xs.length * 32 := length_flatMap_const _ 32 _ (by simp)

theorem words_wordBits (xs : List Word) : words (wordBits xs) = xs := by
  refine List.ext_getElem (by simp [words, wordBits_length]) fun i h1 h2 => ?_
  have := chunk (fun x : Word => bitsBE 32 x.toNat) 32 xs (by simp) i h2
  simp only [words, List.getElem_map, List.getElem_range]
  rw [List.drop_take, show (i + 1) * 32 - i * 32 = 32 by omega, mul_comm i 32] at this
  rw [wordBits, this, natBE_bitsBE_of_lt (BitVec.isLt _), BitVec.ofNat_toNat]
  simp

theorem wordBits_append (a b : List Word) : wordBits (a ++ b) = wordBits a ++ wordBits b := by simp [wordBits]

theorem parse_append {a b : List Bool} (ha : a.length = 512) : parse (a ++ b) = words a :: parse b := by
  rw [parse, parse, List.length_append, ha, show (512 + b.length) / 512 = b.length / 512 + 1 by omega, List.range_succ_eq_map, List.map_cons, List.map_map]
  congr 1
  · rw [Nat.mul_zero, List.drop_zero, List.take_append_of_le_length (by omega), List.take_of_length_le (by omega)]
  · refine List.map_congr_left fun i _ => ?_
    simp only [Function.comp, Nat.succ_eq_add_one]
    rw [show 512 * (i + 1) = a.length + 512 * i by omega, ← List.drop_drop, List.drop_left]

theorem parse_nil : parse [] = [] := rfl

/-- One block. -/
theorem parse_words1 {a b : List Word} (ha : a.length = 8) (hb : b.length = 8) {bl : List Bool} : parse (wordBits (a ++ b) ++ bl) = (a ++ b) :: parse bl := by
  rw [parse_append (by simp [wordBits_length, ha, hb]), words_wordBits]

theorem pad_words {xs ys : List Word} (h : [true] ++ List.replicate (zeros (xs.length * 32)) false ++ bitsBE 64 (xs.length * 32) = wordBits ys) : pad (wordBits xs) = wordBits (xs ++ ys) := by
  rw [wordBits_append, ← h, pad, wordBits_length]
  simp only [List.append_assoc]

theorem dummy256 : [true] ++ List.replicate (zeros 256) false ++ bitsBE 64 256 = wordBits [0x80000000#32, 0, 0, 0, 0, 0, 0, 0x100#32] := by decide +kernel
theorem dummy512 : [true] ++ List.replicate (zeros 512) false ++ bitsBE 64 512 = wordBits ([0x80000000#32, 0, 0, 0, 0, 0, 0, 0] ++ [0, 0, 0, 0, 0, 0, 0, 0x200#32]) := by decide +kernel
theorem dummy1024 : [true] ++ List.replicate (zeros 1024) false ++ bitsBE 64 1024 = wordBits ([0x80000000#32, 0, 0, 0, 0, 0, 0, 0] ++ [0, 0, 0, 0, 0, 0, 0, 0x400#32]) := by decide +kernel

theorem sha256bitPadded_spec (hS : Imports P sha) {a : List Word} (ha : a.length = 8) : CallsTo O P sha256bitPadded [wordsV a] (.ok (wordsV (Sha256.sha256 (wordBits a)))) := by
  rw [callsTo_iff]
  have h : parse (pad (wordBits a)) = [a ++ [0x80000000#32, 0, 0, 0, 0, 0, 0, 0x100#32]] := by
    rw [pad_words (by rw [ha]; exact dummy256), ← List.append_nil (wordBits _), parse_words1 ha rfl, parse_nil]
  rw [Sha256.sha256, h]
  exact fwp (wp_var ev_ulits (wp_callTo (evL_cons (ev_ws lk(rfl) ha) (evL_cons (ev_ws (xs := [0x80000000#32, 0, 0, 0, 0, 0, 0, 0x100#32]) lk(rfl) rfl) evL_nil)) (hS _ _ _ _ _ rfl) (sha512bit_spec hS ha rfl)
    (wp_nil (ev_ws lk(rfl) (blocks_length _)))))

theorem sha512bitPadded_spec (hS : Imports P sha) {a b : List Word} (ha : a.length = 8) (hb : b.length = 8) :
    CallsTo O P sha512bitPadded [wordsV a, wordsV b] (.ok (wordsV (Sha256.sha256 (wordBits (a ++ b))))) := by
  rw [callsTo_iff]
  have h : parse (pad (wordBits (a ++ b))) = [a ++ b, [0x80000000#32, 0, 0, 0, 0, 0, 0, 0] ++ [0, 0, 0, 0, 0, 0, 0, 0x200#32]] := by
    rw [pad_words (by rw [List.length_append, ha, hb]; exact dummy512), wordBits_append (a ++ b), parse_words1 ha hb, ← List.append_nil (wordBits (_ ++ _)), parse_words1 rfl rfl, parse_nil]
  rw [Sha256.sha256, h]
  exact fwp (wp_var ev_ulits (wp_var ev_ulits (wp_callTo (evL_cons (ev_ws lk(rfl) ha) (evL_cons (ev_ws lk(rfl) hb) (evL_cons (ev_ws (xs := [0x80000000#32, 0, 0, 0, 0, 0, 0, 0]) lk(rfl) rfl)
    (evL_cons (ev_ws (xs := [0, 0, 0, 0, 0, 0, 0, 0x200#32]) lk(rfl) rfl) evL_nil)))) (hS _ _ _ _ _ rfl) (sha1024bit_spec hS ha hb rfl rfl) (wp_nil (ev_ws lk(rfl) (blocks_length _))))))

theorem sha1024bitPadded_spec (hS : Imports P sha) {a b c d : List Word} (ha : a.length = 8) (hb : b.length = 8) (hc : c.length = 8) (hd : d.length = 8) :
    CallsTo O P sha1024bitPadded [wordsV a, wordsV b, wordsV c, wordsV d] (.ok (wordsV (Sha256.sha256 (wordBits (a ++ b ++ (c ++ d)))))) := by
  rw [callsTo_iff]
  have h : parse (pad (wordBits (a ++ b ++ (c ++ d)))) = [a ++ b, c ++ d, [0x80000000#32, 0, 0, 0, 0, 0, 0, 0] ++ [0, 0, 0, 0, 0, 0, 0, 0x400#32]] := by
    rw [pad_words (by simp only [List.length_append, ha, hb, hc, hd]; exact dummy1024), wordBits_append, wordBits_append (a ++ b), List.append_assoc, parse_words1 ha hb, parse_words1 hc hd,
      ← List.append_nil (wordBits (_ ++ _)), parse_words1 rfl rfl, parse_nil]
  rw [Sha256.sha256, h]
  exact fwp (wp_var ev_ulits (wp_var ev_ulits (wp_callTo (evL_cons (ev_ws lk(rfl) ha) (evL_cons (ev_ws lk(rfl) hb) (evL_cons (ev_ws lk(rfl) hc) (evL_cons (ev_ws lk(rfl) hd)
    (evL_cons (ev_ws (xs := [0x80000000#32, 0, 0, 0, 0, 0, 0, 0]) lk(rfl) rfl)
    (evL_cons (ev_ws (xs := [0, 0, 0, 0, 0, 0, 0, 0x400#32]) lk(rfl) rfl) evL_nil)))))) (hS _ _ _ _ _ rfl) (sha1536bit_spec hS ha hb hc hd rfl rfl) (wp_nil (ev_ws lk(rfl) (blocks_length _))))))

end Zok.Typed.Std
