import Verif.Lemmas.StdKeccak

/-
`hashes/keccak`: the sponge.
-/

set_option linter.unusedSectionVars false

namespace Zok.Typed.Std
open Abi Keccak
variable {p : ℕ} {Z : Type} [Fact p.Prime] {O : Oracle p Z} {P : Program (ZMod p)}

/-- An array of bytes. -/
def bytesF (n : ℕ) (f : ℕ → Byte) : AVal (ZMod p) := arrF n fun k => byteV (f k)

theorem hasType_byteV (a : Byte) : HasType (p := p) u8 (byteV a) := ⟨rfl, a.isLt⟩

theorem bytesF_congr {n : ℕ} {f g : ℕ → Byte} (h : ∀ k < n, f k = g k) : bytesF (p := p) n f = bytesF n g := arrF_congr fun k hk => by rw [h k hk]

theorem bytesV_eq (s : List Byte) : bytesV (p := p) s = bytesF s.length fun k => s.getD k 0 := by
  rw [bytesV, bytesF, arrF]
  congr 1
  refine List.ext_getElem (by simp) fun k h1 h2 => ?_
  simp only [List.length_map] at h1
  simp [h1]

theorem bytesF_eq (n : ℕ) (f : ℕ → Byte) : bytesF (p := p) n f = bytesV ((List.range n).map f) := by
  rw [bytesV, bytesF, arrF, List.map_map]; rfl

section
variable {env : TEnv p}

theorem ev_b {x : TId} {a : Byte} (h : env x = some (byteV a)) : evalT env (.ident x u8) = .ok (byteV a) := ev_ident h (hasType_byteV a)
theorem ev_bs {x : TId} {n : ℕ} {f : ℕ → Byte} (h : env x = some (bytesF n f)) : evalT env (.ident x (.array n u8)) = .ok (bytesF n f) := ev_ident h (hasType_arrF fun _ _ => hasType_byteV _)
theorem ev_bytesel {x : TId} {n k : ℕ} {f : ℕ → Byte} {i : TExpr (ZMod p)} (h : env x = some (bytesF n f)) (hi : evalT env i = .ok (.uint .b32 k)) (hk : k < n) : evalT env (.select u8 (.ident x (.array n u8)) i) = .ok (byteV (f k)) :=
  ev_selF (f := fun k => byteV (f k)) h (fun _ _ => hasType_byteV _) hi hk
theorem ev_bxor {l r : TExpr (ZMod p)} {a b : Byte} (hl : evalT env l = .ok (byteV a)) (hr : evalT env r = .ok (byteV b)) : evalT env (.ubin .b8 .xor l r) = .ok (byteV (a ^^^ b)) :=
  ev_ubin hl hr (by simp [UOp.eval])
theorem setA_byte {x : TId} {n k : ℕ} {f g : ℕ → Byte} {i : TExpr (ZMod p)} {a : Byte} (h : env x = some (bytesF n f)) (hi : evalT env i = .ok (.uint .b32 k)) (hk : k < n) (hg : ∀ j < n, g j = if j = k then a else f j) :
    setA env (.select (.ident x (.array n u8)) i) (byteV a) = .ok (bytesF n g) := by
  rw [setA_F (f := fun k => byteV (f k)) h (fun _ _ => hasType_byteV _) hi hk]
  congr 1
  refine arrF_congr fun j hj => ?_
  rw [hg j hj]
  split <;> rfl
end

theorem wp_setByte {σ : TState p} {x : TId} {n k : ℕ} {i e : TExpr (ZMod p)} {f : ℕ → Byte} (g : ℕ → Byte) {a : Byte} {ss : List (SStmt (ZMod p))} {R : Except Fault (TState p) → Prop}
    (h : σ.env x = some (bytesF n f)) (hi : evalT σ.env i = .ok (.uint .b32 k)) (hk : k < n) (he : evalT σ.env e = .ok (byteV a)) (hg : ∀ j < n, g j = if j = k then a else f j)
    (hw : WP O P (σ.set x (bytesF n g)) ss R) : WP O P σ (setAt x n u8 i e :: ss) R :=
  wp_def he (setA_byte h hi hk hg) hw

/-! ### Bytes and lanes -/

theorem natBE_byte (b : Byte) : natBE (bitsBE 8 b.toNat) = b.toNat := natBE_bitsBE_of_lt b.isLt

theorem toNat_append8 {n : ℕ} (a : BitVec n) (b : Byte) : (a ++ b).toNat = a.toNat * 2 ^ 8 + b.toNat := by
  rw [BitVec.toNat_append, ← Nat.shiftLeft_add_eq_or_of_lt b.isLt, Nat.shiftLeft_eq]

theorem natBE_cat8 (f : ℕ → Byte) : natBE (((List.range 8).map fun j => (f j).toNat).flatMap (bitsBE 8)) = (cat8 f).toNat := by
  have h : (cat8 f).toNat = (f 0 ++ f 1 ++ f 2 ++ f 3 ++ f 4 ++ f 5 ++ f 6 ++ f 7).toNat := rfl
  rw [h]
  simp only [toNat_append8]
  have h8 : List.range 8 = [0, 1, 2, 3, 4, 5, 6, 7] := rfl
  simp only [h8, List.map_cons, List.map_nil, List.flatMap_cons, List.flatMap_nil, List.append_nil, natBE_append, natBE_byte, length_bitsBE, List.length_append]
  ring

theorem bytesF_uints (n : ℕ) (f : ℕ → Byte) : bytesF (p := p) n f = uintsV .b8 ((List.range n).map fun j => (f j).toNat) := by
  rw [uintsV, List.map_map]; rfl

theorem mem_bytes {n : ℕ} {f : ℕ → Byte} : ∀ x ∈ (List.range n).map fun j => (f j).toNat, x < 2 ^ UW.b8.bits := by
  intro x hx
  obtain ⟨j, -, rfl⟩ := List.mem_map.1 hx
  exact (f j).isLt

theorem laneFrom_spec (hU : Imports P utils) (f : ℕ → Byte) : CallsTo O P (castCat .b8 .b64 8) [bytesF 8 f] (.ok (laneV (cat8 f))) := by
  rw [bytesF_uints, laneV, ← natBE_cat8]
  exact castCat_spec hU mem_bytes (by simp) rfl

theorem laneTo_spec (hU : Imports P utils) (a : Lane) : CallsTo O P (castSplit .b8 .b64 8) [laneV a] (.ok (bytesF 8 (byteAt a))) := by
  rw [bytesF_uints, laneV]
  conv in BitVec.toNat a => rw [← cat8_byteAt a, ← natBE_cat8]
  exact castSplit_spec hU mem_bytes (by simp) rfl

theorem keccakToBytes_spec (hP : Imports P sha3) (hU : Imports P utils) (f : ℕ → Lane) : CallsTo O P keccakToBytes [lanesF 25 f] (.ok (bytesF 200 fun k => byteAt (f (k / 8)) (k % 8))) := by
  rw [callsTo_iff]
  refine fwp (wp_var (v := bytesF 200 fun _ => 0) ((ev_repeat ev_uval ev_ul).trans (congrArg _ (arrF_replicate _ _))) ?_)
  refine wp_for (l := 0) (h := 25) (fun i σ => σ.env 0 = some (lanesF 25 f) ∧ σ.env 1 = some (bytesF 200 fun k => if k < i * 8 then byteAt (f (k / 8)) (k % 8) else 0)) ev_ul ev_ul (by omega) ⟨rfl, ?_⟩ ?_ ?_
  · rw [bytesF_congr fun k _ => if_neg (by omega)]
    rfl
  · rintro i σ - hi ⟨h0, h1⟩
    refine wp_callTo (evL_cons (ev_lsel lk(h0) (ev_uv (n := i) lk(rfl) (by omega)) hi) evL_nil) (hP _ _ _ _ _ rfl) (laneTo_spec hU _) ?_
    refine wp_for (l := 0) (h := 8) (fun j σ => σ.env 0 = some (lanesF 25 f) ∧ σ.env 2 = some (.uint .b32 i) ∧ σ.env 3 = some (bytesF 8 (byteAt (f i))) ∧
      σ.env 1 = some (bytesF 200 fun k => if k < i * 8 + j then byteAt (f (k / 8)) (k % 8) else 0)) ev_ul ev_ul (by omega) ⟨h0, rfl, rfl, h1⟩ ?_ ?_
    · clear h0 h1 σ
      rintro j σ - hj ⟨h0, h2, h3, h1⟩
      refine wp_setByte _ lk(h1) (ev_iadd (ev_imul (x := i) (ev_uv lk(h2) (by omega)) ev_ul (by omega)) (ev_uv (n := j) lk(rfl) (by omega)) (by omega)) (by omega) (ev_bytesel lk(h3) (ev_uv (n := j) lk(rfl) (by omega)) hj) ?_
        (wp_nil ⟨h0, h2, h3, rfl⟩)
      intro k hk
      by_cases h : k = i * 8 + j
      · rw [if_pos h, if_pos (by omega), show k / 8 = i by omega, show k % 8 = j by omega]
      · rw [if_neg h]
        refine if_congr ?_ rfl rfl
        omega
    · clear h0 h1 σ
      rintro σ ⟨h0, h2, h3, h1⟩
      refine wp_nil ⟨h0, h1.trans ?_⟩
      rw [Nat.succ_mul]
  · rintro σ ⟨-, h1⟩
    rw [bytesF_congr fun k hk => if_pos hk] at h1
    exact wp_nil (ev_bs h1)

theorem keccakFromBytes_spec (hP : Imports P sha3) (hU : Imports P utils) (g : ℕ → Byte) : CallsTo O P keccakFromBytes [bytesF 200 g] (.ok (lanesF 25 fun k => cat8 fun j => g (k * 8 + j))) := by
  rw [callsTo_iff]
  refine fwp (wp_var (v := lanesF 25 fun _ => 0) ((ev_repeat (ev_ll _ (by norm_num)) ev_ul).trans (congrArg _ (arrF_replicate _ _))) ?_)
  refine wp_for (l := 0) (h := 25) (fun i σ => σ.env 0 = some (bytesF 200 g) ∧ σ.env 1 = some (lanesF 25 fun k => if k < i then cat8 fun j => g (k * 8 + j) else 0)) ev_ul ev_ul (by omega) ⟨rfl, ?_⟩ ?_ ?_
  · rfl
  · rintro i σ - hi ⟨h0, h1⟩
    refine wp_callLane _ (vs := [bytesF 8 fun j => g (i * 8 + j)]) lk(h1) (ev_uv (n := i) lk(rfl) (by omega)) hi (evL_cons ?_ evL_nil) (hP _ _ _ _ _ rfl) (laneFrom_spec hU _) ?_ (wp_nil ⟨h0, rfl⟩)
    · refine (ev_slice (ev_bs lk(h0)) (ev_imul (x := i) (ev_uv lk(rfl) (by omega)) ev_ul (by omega)) (ev_iadd (ev_imul (x := i) (ev_uv lk(rfl) (by omega)) ev_ul (by omega)) ev_ul (by omega)) (by omega) (by simp; omega)).trans ?_
      rw [bytesF, arrF]
      congr 2
      refine List.ext_getElem (by simp; omega) fun k h1 h2 => ?_
      simp
    · intro k hk
      by_cases h : k = i
      · rw [if_pos h, if_pos (by omega), h]
      · rw [if_neg h]
        refine if_congr ?_ rfl rfl
        omega
  · rintro σ ⟨-, h1⟩
    rw [lanesF_congr fun k hk => if_pos hk] at h1
    exact wp_nil (ev_ls h1)

theorem permute_getD (s : List Byte) (k : ℕ) (hk : k < 200) : (permute s).getD k 0 = byteAt (bswap (flat (keccakF (ofBytes s)) (k / 8))) (k % 8) := by
  rw [byteAt_bswap _ (by omega), byteAt, permute, toBytes, flat, show 7 - (7 - k % 8) = k % 8 by omega]
  rw [List.getD_eq_getElem _ _ (by simpa using hk)]
  simp only [List.getElem_map, List.getElem_range]
  rw [show (Fin.ofNat 5 (k / 8 % 5) : Fin 5) = Fin.ofNat 5 (k / 8) from Fin.ext (by simp [Fin.ofNat])]

theorem ofBytes_flat (g : ℕ → Byte) : ∀ k < 25, bswap (cat8 fun j => g (k * 8 + j)) = flat (ofBytes ((List.range 200).map g)) k := by
  intro k hk
  have hg : ∀ i < 200, ((List.range 200).map g).getD i 0 = g i := by
    intro i hi
    rw [List.getD_eq_getElem _ _ (by simpa using hi)]
    simp
  have hx : ((Fin.ofNat 5 k : Fin 5) : ℕ) + 5 * ((Fin.ofNat 5 (k / 5) : Fin 5) : ℕ) = k := by
    simp only [Fin.ofNat]
    omega
  have h : flat (ofBytes ((List.range 200).map g)) k = cat8 fun j => ((List.range 200).map g).getD (8 * k + (7 - j)) 0 := by
    rw [flat, ofBytes, hx]
    rfl
  rw [h, bswap]
  refine cat8_congr fun j hj => ?_
  rw [hg _ (by omega), byteAt_cat8 _ (by omega), Nat.mul_comm]

/-- The three calls of the permutation. -/
theorem wp_permute (hP : Imports P sha3) (hU : Imports P utils) {σ : TState p} {s : List Byte} {x : TId} {g : ℕ → Byte} {ss : List (SStmt (ZMod p))} {R : Except Fault (TState p) → Prop} (h : σ.env 2 = some (bytesF 200 g))
    (hs : s = (List.range 200).map g)
    (hw : WP O P (((σ.set 10 (lanesF 25 fun k => cat8 fun j => g (k * 8 + j))).set 11 (lanesF 25 fun k => bswap (flat (keccakF (ofBytes s)) k))).set x (bytesF 200 fun k => (permute s).getD k 0)) ss R) :
    WP O P σ (call 10 (.array 25 u64) kFromBytes [.ident 2 (.array 200 u8)] :: call 11 (.array 25 u64) kKeccakF [.ident 10 (.array 25 u64)] :: call x (.array 200 u8) kToBytes [.ident 11 (.array 25 u64)] :: ss) R := by
  subst hs
  refine wp_callTo (evL_cons (ev_bs h) evL_nil) (hP _ _ _ _ _ rfl) (keccakFromBytes_spec hP hU g) ?_
  refine wp_callTo (evL_cons (ev_ls lk(rfl)) evL_nil) (hP _ _ _ _ _ rfl) (keccakf_spec hP _ _ (ofBytes_flat g)) ?_
  refine wp_callTo (evL_cons (ev_ls lk(rfl)) evL_nil) (hP _ _ _ _ _ rfl) (keccakToBytes_spec hP hU _) ?_
  rw [bytesF_congr (permute_getD _)] at hw
  exact hw

/-! ### Padding -/

theorem xor0 (a : Byte) : a ^^^ 0 = a := BitVec.xor_zero

theorem pad_length {R : ℕ} (hR : 0 < R) (d : Byte) (m : List Byte) : (pad R d m).length = (m.length / R + 1) * R := by
  have h1 := Nat.mod_lt m.length hR
  have h2 := Nat.div_add_mod m.length R
  simp only [pad, List.length_modify, List.length_append, List.length_cons, List.length_replicate]
  rw [Nat.succ_mul, Nat.mul_comm]
  omega

theorem pad_getD {R : ℕ} (hR : 0 < R) (d : Byte) (m : List Byte) (j : ℕ) (hj : j < (pad R d m).length) :
    (pad R d m).getD j 0 = (if j < m.length then m.getD j 0 else if j = m.length then d else 0) ^^^ (if j + 1 = (pad R d m).length then 0x80 else 0) := by
  have hl : (pad R d m).length = (m ++ d :: List.replicate (R - 1 - m.length % R) 0).length := by simp only [pad, List.length_modify]
  have h0 : 0 < (pad R d m).length := by omega
  have hz : (m ++ d :: List.replicate (R - 1 - m.length % R) 0).getD j 0 = if j < m.length then m.getD j 0 else if j = m.length then d else 0 := by
    by_cases h1 : j < m.length
    · rw [if_pos h1, List.getD_append _ _ _ _ h1]
    · rw [if_neg h1, List.getD_append_right _ _ _ _ (by omega)]
      by_cases h2 : j = m.length
      · rw [if_pos h2, h2, Nat.sub_self]; rfl
      · rw [if_neg h2, show j - m.length = (j - m.length - 1) + 1 by omega, List.getD_cons_succ, List.getD_replicate]
        rw [hl] at hj
        simp at hj
        omega
  rw [← hz, List.getD_eq_getElem _ _ hj, List.getD_eq_getElem _ _ (by omega)]
  have hm : (pad R d m)[j] = if (m ++ d :: List.replicate (R - 1 - m.length % R) 0).length - 1 = j then (m ++ d :: List.replicate (R - 1 - m.length % R) 0)[j]'(by omega) ^^^ 0x80#8
      else (m ++ d :: List.replicate (R - 1 - m.length % R) 0)[j]'(by omega) := by
    simp only [pad, List.getElem_modify]
  rw [hm]
  by_cases h : j + 1 = (pad R d m).length
  · rw [if_pos (by omega), if_pos (by omega)]; rfl
  · rw [if_neg (by omega), if_neg h, xor0]

theorem block_getD (R n : ℕ) (Q : List Byte) (k : ℕ) : ((Q.drop (n * R)).take R).getD k 0 = if k < R then Q.getD (n * R + k) 0 else 0 := by
  simp only [List.getD_eq_getElem?_getD, List.getElem?_take, List.getElem?_drop]
  split <;> rfl

theorem xorBlock_eq (s b : List Byte) (g : ℕ → Byte) (h : ∀ k < 200, g k = s.getD k 0 ^^^ b.getD k 0) : xorBlock s b = (List.range 200).map g :=
  List.map_congr_left fun k hk => (h k (by simpa using hk)).symm

/-! ### The sponge -/

theorem keccakMain_spec (hP : Imports P sha3) (hU : Imports P utils) {m : List Byte} {N W : ℕ} (hm : m.length = N) (hN : N < 2 ^ 32) (hW : W < 100) (d : Byte) :
    CallsTo O P (keccakMain N W) [bytesV m, byteV d] (.ok (bytesV (hash (200 - 2 * W) d W m))) := by
  rw [callsTo_iff]
  obtain ⟨R, hR⟩ : ∃ R, R = 200 - 2 * W := ⟨_, rfl⟩
  have hR0 : 0 < R := by omega
  have hR1 : R ≤ 200 := by omega
  have hpl := pad_length hR0 d m
  have hmod : ∀ i, i % R < R := fun i => Nat.mod_lt i hR0
  have hdm : ∀ i, i / R * R + i % R = i := fun i => by rw [Nat.mul_comm]; exact Nat.div_add_mod i R
  refine fwp (wp_var (v := bytesF 200 fun _ => 0) ((ev_repeat ev_uval ev_ul).trans (congrArg _ (arrF_replicate _ _))) ?_)
  refine wp_var (v := .uint .b32 R) ?_ (wp_var ev_ul ?_)
  · rw [hR]
    exact ev_isub ev_ul (ev_imul ev_ul (ev_uv (n := W) lk(rfl) (by omega)) (by omega)) (by omega) (by omega)
  refine wp_for (l := 0) (h := N) (fun i σ => σ.env 0 = some (bytesF N fun k => m.getD k 0) ∧ σ.env 1 = some (byteV d) ∧ σ.env 9 = some (.uint .b32 W) ∧ σ.env 3 = some (.uint .b32 R) ∧ σ.env 4 = some (.uint .b32 (i % R)) ∧
      σ.env 2 = some (bytesF 200 fun k => (absorb R (pad R d m) (i / R)).getD k 0 ^^^ if k < i % R then m.getD (i / R * R + k) 0 else 0)) ev_ul (ev_uv (n := N) lk(rfl) hN) (by omega) ?_ ?_ ?_
  · refine ⟨?_, rfl, rfl, rfl, ?_, ?_⟩
    · rw [← hm, ← bytesV_eq]; rfl
    · rw [Nat.zero_mod]; rfl
    · rw [Nat.zero_div, Nat.zero_mod, absorb]
      refine congrArg some (bytesF_congr fun k hk => ?_)
      rw [if_neg (by omega), List.getD_replicate 0 hk]
      rfl
  · rintro i σ - hi ⟨h0, h1, h9, h3, h4, h2⟩
    have hi1 := hmod i
    have hi2 := hdm i
    refine wp_setByte (fun k => (absorb R (pad R d m) (i / R)).getD k 0 ^^^ if k < i % R + 1 then m.getD (i / R * R + k) 0 else 0) lk(h2) (ev_uv lk(h4) (by omega)) (by omega)
      (ev_bxor (ev_bytesel lk(h2) (ev_uv lk(h4) (by omega)) (by omega)) (ev_bytesel lk(h0) (ev_uv (n := i) lk(rfl) (by omega)) hi)) ?_ ?_
    · intro k hk
      rw [if_neg (show ¬ i % R < i % R by omega)]
      by_cases h : k = i % R
      · rw [if_pos h, if_pos (by omega), h, hi2, xor0]
      · rw [if_neg h]
        congr 1
        refine if_congr ?_ rfl rfl
        omega
    refine wp_var (ev_urem (ev_iadd (x := i % R) (ev_uv lk(h4) (by omega)) ev_ul (by omega)) (ev_uv (n := R) lk(h3) (by omega)) (by omega)) ?_
    refine wp_permute hP hU lk(rfl) rfl ?_
    rw [Nat.mod_add_mod]
    by_cases hz : (i + 1) % R = 0
    · have hq : i % R + 1 = R := by
        by_contra h
        rw [← Nat.mod_add_mod, Nat.mod_eq_of_lt (by omega)] at hz
        omega
      have hdiv : (i + 1) / R = i / R + 1 := by
        have := hdm (i + 1)
        rw [hz] at this
        have h2 : (i + 1) / R * R = (i / R + 1) * R := by rw [Nat.succ_mul]; omega
        exact Nat.eq_of_mul_eq_mul_right hR0 h2
      refine wp_var (ev_cond (ev_eq (ev_uv (n := (i + 1) % R) lk(rfl) (by omega)) ev_ul) (ev_bs lk(rfl)) (ev_bs lk(rfl))) (wp_nil ⟨h0, h1, h9, h3, rfl, ?_⟩)
      rw [hdiv, hz]
      refine congrArg some ?_
      rw [if_pos (by simp)]
      refine bytesF_congr fun k hk => ?_
      rw [if_neg (by omega), xor0, absorb]
      congr 2
      refine (xorBlock_eq _ _ _ fun k hk => ?_).symm
      rw [block_getD, hq]
      congr 1
      refine if_ctx_congr Iff.rfl (fun hk2 => ?_) fun _ => rfl
      have hb : i / R * R + k < m.length := by omega
      have hb2 : i / R * R + k < (pad R d m).length := by
        have := hdm m.length
        have := hmod m.length
        rw [hpl, Nat.succ_mul]; omega
      rw [pad_getD hR0 d m _ hb2, if_pos hb, if_neg, xor0]
      have := hdm m.length
      have := hmod m.length
      rw [hpl, Nat.succ_mul]
      intro h
      have h5 : i / R < m.length / R := by
        rw [Nat.lt_iff_add_one_le, ← hdiv]
        exact Nat.div_le_div_right (by omega)
      have h6 := Nat.mul_le_mul_right R h5
      rw [Nat.succ_mul] at h6
      omega
    · have hq : i % R + 1 < R := by
        by_contra h
        rw [← Nat.mod_add_mod, show i % R + 1 = R by omega, Nat.mod_self] at hz
        exact hz rfl
      have hm1 : (i + 1) % R = i % R + 1 := by rw [← Nat.mod_add_mod, Nat.mod_eq_of_lt hq]
      have hdiv : (i + 1) / R = i / R := by
        have := hdm (i + 1)
        rw [hm1] at this
        have h2 : (i + 1) / R * R = i / R * R := by omega
        exact Nat.eq_of_mul_eq_mul_right hR0 h2
      refine wp_var (ev_cond (ev_eq (ev_uv (n := (i + 1) % R) lk(rfl) (by omega)) ev_ul) (ev_bs lk(rfl)) (ev_bs lk(rfl))) (wp_nil ⟨h0, h1, h9, h3, rfl, ?_⟩)
      rw [hdiv, hm1]
      refine congrArg some ?_
      rw [if_neg]
      simp
  · rintro σ ⟨-, h1, h9, h3, h4, h2⟩
    have hi1 := hmod N
    have hi2 := hdm N
    have hpl2 : (pad R d m).length = N / R * R + R := by rw [hpl, hm, Nat.succ_mul]
    refine wp_setByte _ lk(h2) (ev_uv lk(h4) (by omega)) (by omega) (ev_bxor (ev_bytesel lk(h2) (ev_uv lk(h4) (by omega)) (by omega)) (ev_b lk(h1))) (fun _ _ => rfl) ?_
    refine wp_setByte _ lk(rfl) (ev_isub (ev_uv (n := R) lk(h3) (by omega)) ev_ul (by omega) (by omega)) (by omega)
      (ev_bxor (b := 0x80) (ev_bytesel lk(rfl) (ev_isub (ev_uv (n := R) lk(h3) (by omega)) ev_ul (by omega) (by omega)) (by omega)) ev_uval) (fun _ _ => rfl) ?_
    refine wp_permute (s := xorBlock (absorb R (pad R d m) (N / R)) (((pad R d m).drop (N / R * R)).take R)) hP hU lk(rfl) (xorBlock_eq _ _ _ fun k hk => ?_) (wp_nil ?_)
    · rw [block_getD]
      by_cases hkR : k < R
      · rw [if_pos hkR, pad_getD hR0 d m _ (by omega), hm, hpl2]
        have hN1 : N / R * R + k < N ↔ k < N % R := by omega
        have hN2 : N / R * R + k = N ↔ k = N % R := by omega
        have hN3 : N / R * R + k + 1 = N / R * R + R ↔ k = R - 1 := by omega
        simp only [hN1, hN2, hN3]
        have hq : ¬ R - 1 < N % R := by have := hmod N; omega
        by_cases c1 : k = R - 1
        · by_cases c2 : R - 1 = N % R
          · have c3 : ¬ N % R < N % R := by omega
            simp [c1, c2, c3, BitVec.xor_assoc]
          · simp [c1, c2, hq]
        · by_cases c2 : k = N % R
          · have c3 : ¬ N % R < N % R := by omega
            subst c2
            simp [c1, c3]
          · simp [c1, c2]
      · rw [if_neg hkR, if_neg (by omega), if_neg (by omega), if_neg (by omega)]
    · refine (ev_slice (ev_bs lk(rfl)) ev_ul (ev_uv (n := W) lk(h9) (by omega)) (by omega) (by simp; omega)).trans ?_
      rw [Keccak.hash, ← hR, hpl, Nat.mul_div_cancel _ hR0, hm, absorb]
      rw [List.drop_zero, ← List.map_take, bytesV]
      congr 2
      have hl : ∀ s, (permute s).length = 200 := fun s => by simp [permute, toBytes]
      generalize xorBlock (absorb R (pad R d m) (N / R)) (((pad R d m).drop (N / R * R)).take R) = s
      refine List.ext_getElem (by simp [hl]) fun k a1 a2 => ?_
      simp only [List.length_map, List.length_take, hl] at a2
      simp only [List.getElem_map, List.getElem_take, List.getElem_range]
      rw [List.getD_eq_getElem _ _ (by rw [hl]; omega)]

theorem hash_length (R : ℕ) (d : Byte) (W : ℕ) (m : List Byte) (hR : 0 < R) (hW : W ≤ 200) : (hash R d W m).length = W := by
  rw [Keccak.hash, pad_length hR, Nat.mul_div_cancel _ hR, absorb, List.length_take]
  simp [permute, toBytes, hW]

theorem keccakBits_spec (hP : Imports P sha3) (hU : Imports P utils) {m : List Byte} {N W : ℕ} (hm : m.length = N) (hN : N < 2 ^ 32) (hW : W < 100) (d : Byte) :
    CallsTo O P (keccakBits d.toNat W N) [bytesV m] (.ok (bytesV (hash (200 - 2 * W) d W m))) := by
  rw [callsTo_iff]
  refine fwp (wp_callTo (vs := [bytesV m, byteV d]) (evL_cons ?_ (evL_cons ev_uval evL_nil)) (hP _ _ _ _ _ rfl) (keccakMain_spec hP hU hm hN hW d) (wp_nil ?_))
  · rw [bytesV_eq, hm]
    exact ev_bs lk(rfl)
  · have := hash_length (200 - 2 * W) d W m (by omega) (by omega)
    rw [bytesV_eq (Keccak.hash _ _ _ _), this]
    exact ev_bs lk(rfl)

end Zok.Typed.Std
