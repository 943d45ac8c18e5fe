import Verif.Lemmas.StdSha
import Verif.Model.StdKeccak
import Verif.Spec.Keccak

/-
`hashes/keccak`: the permutation.
-/

set_option linter.unusedSectionVars false

namespace Zok.Typed
open Abi
variable {p : ℕ}

/-- An array of values which are given by a function. -/
def arrF (n : ℕ) (f : ℕ → AVal (ZMod p)) : AVal (ZMod p) := .array ((List.range n).map f)

theorem arrF_congr {n : ℕ} {f g : ℕ → AVal (ZMod p)} (h : ∀ k < n, f k = g k) : arrF n f = arrF n g := by
  rw [arrF, arrF, List.map_congr_left fun k hk => h k (by simpa using hk)]

theorem arrF_replicate (n : ℕ) (v : AVal (ZMod p)) : .array (List.replicate n v) = arrF n fun _ => v := by simp [arrF]

theorem hasType_arrF {n : ℕ} {t : CType} {f : ℕ → AVal (ZMod p)} (h : ∀ k < n, HasType t (f k)) : HasType (.array n t) (arrF n f) := by
  simp only [arrF, HasType, List.length_map, List.length_range, true_and, List.mem_map, List.mem_range]
  rintro v ⟨k, hk, rfl⟩
  exact h k hk

end Zok.Typed

namespace Zok.Typed.Std
open Abi Keccak
variable {p : ℕ} {Z : Type} [Fact p.Prime] {O : Oracle p Z} {P : Program (ZMod p)}

/-! ### Arrays -/

section
variable {env : TEnv p}

theorem ev_selF {x : TId} {n k : ℕ} {t t' : CType} {f : ℕ → AVal (ZMod p)} {i : TExpr (ZMod p)} (h : env x = some (arrF n f)) (ht : ∀ k < n, HasType t (f k)) (hi : evalT env i = .ok (.uint .b32 k)) (hk : k < n) :
    evalT env (.select t' (.ident x (.array n t)) i) = .ok (f k) :=
  ev_select (ev_ident h (hasType_arrF ht)) hi (by simp [hk])

theorem setA_F {x : TId} {n k : ℕ} {t : CType} {f : ℕ → AVal (ZMod p)} {i : TExpr (ZMod p)} {v : AVal (ZMod p)} (h : env x = some (arrF n f)) (ht : ∀ k < n, HasType t (f k)) (hi : evalT env i = .ok (.uint .b32 k)) (hk : k < n) :
    setA env (.select (.ident x (.array n t)) i) v = .ok (arrF n fun j => if j = k then v else f j) := by
  rw [setA_select h (hasType_arrF ht) hi (by simpa using hk), arrF]
  congr 2
  refine List.ext_getElem (by simp) fun j h1 h2 => ?_
  rw [List.getElem_set]
  simp only [List.getElem_map, List.getElem_range]
  by_cases hj : k = j
  · rw [if_pos hj, if_pos hj.symm]
  · rw [if_neg hj, if_neg fun h => hj h.symm]

theorem ev_urem {l r : TExpr (ZMod p)} {a b : ℕ} (hl : evalT env l = .ok (.uint .b32 a)) (hr : evalT env r = .ok (.uint .b32 b)) (hb : b ≠ 0) : evalT env (.ubin .b32 .rem l r) = .ok (.uint .b32 (a % b)) :=
  ev_ubin hl hr (by simp [UOp.eval, hb])

/-! ### Lanes -/

/-- A lane as a value. -/
def laneV (a : Lane) : AVal (ZMod p) := .uint .b64 a.toNat
/-- An array of lanes. -/
def lanesF (n : ℕ) (f : ℕ → Lane) : AVal (ZMod p) := arrF n fun k => laneV (f k)

theorem hasType_laneV (a : Lane) : HasType (p := p) u64 (laneV a) := ⟨rfl, a.isLt⟩

theorem lanesF_congr {n : ℕ} {f g : ℕ → Lane} (h : ∀ k < n, f k = g k) : lanesF (p := p) n f = lanesF n g := arrF_congr fun k hk => by rw [h k hk]

variable {l r : TExpr (ZMod p)} {a b : Lane}

theorem ev_l {x : TId} (h : env x = some (laneV a)) : evalT env (lv x) = .ok (laneV a) := ev_ident h (hasType_laneV a)
theorem ev_ls {x : TId} {n : ℕ} {f : ℕ → Lane} (h : env x = some (lanesF n f)) : evalT env (.ident x (.array n u64)) = .ok (lanesF n f) := ev_ident h (hasType_arrF fun _ _ => hasType_laneV _)
theorem ev_ll (n : ℕ) (h : n < 2 ^ 64) : evalT env (ll n) = .ok (laneV (BitVec.ofNat 64 n)) := by
  rw [ll, ev_uval, laneV, BitVec.toNat_ofNat, Nat.mod_eq_of_lt h]
theorem ev_lsel {x : TId} {n k : ℕ} {f : ℕ → Lane} {i : TExpr (ZMod p)} (h : env x = some (lanesF n f)) (hi : evalT env i = .ok (.uint .b32 k)) (hk : k < n) : evalT env (lsel x n i) = .ok (laneV (f k)) :=
  ev_selF (f := fun k => laneV (f k)) h (fun _ _ => hasType_laneV _) hi hk
theorem setA_lane {x : TId} {n k : ℕ} {f g : ℕ → Lane} {i : TExpr (ZMod p)} (h : env x = some (lanesF n f)) (hi : evalT env i = .ok (.uint .b32 k)) (hk : k < n) (hg : ∀ j < n, g j = if j = k then a else f j) :
    setA env (.select (.ident x (.array n u64)) i) (laneV a) = .ok (lanesF n g) := by
  rw [setA_F (f := fun k => laneV (f k)) h (fun _ _ => hasType_laneV _) hi hk]
  congr 1
  refine arrF_congr fun j hj => ?_
  rw [hg j hj]
  split <;> rfl

theorem ev_lxor (hl : evalT env l = .ok (laneV a)) (hr : evalT env r = .ok (laneV b)) : evalT env (lbin .xor l r) = .ok (laneV (a ^^^ b)) :=
  ev_ubin hl hr (by simp [UOp.eval])
theorem ev_land (hl : evalT env l = .ok (laneV a)) (hr : evalT env r = .ok (laneV b)) : evalT env (lbin .and l r) = .ok (laneV (a &&& b)) :=
  ev_ubin hl hr (by simp [UOp.eval])
theorem ev_lor (hl : evalT env l = .ok (laneV a)) (hr : evalT env r = .ok (laneV b)) : evalT env (lbin .or l r) = .ok (laneV (a ||| b)) :=
  ev_ubin hl hr (by simp [UOp.eval])
theorem ev_lshl {k : ℕ} (hl : evalT env l = .ok (laneV a)) (hr : evalT env r = .ok (.uint .b32 k)) : evalT env (lbin .shl l r) = .ok (laneV (a <<< k)) :=
  ev_ubin hl hr (by simp [UOp.eval, UW.bits, Nat.shiftLeft_eq])
theorem ev_lshr {k : ℕ} (hl : evalT env l = .ok (laneV a)) (hr : evalT env r = .ok (.uint .b32 k)) : evalT env (lbin .shr l r) = .ok (laneV (a >>> k)) :=
  ev_ubin hl hr (by simp [UOp.eval, Nat.shiftRight_eq_div_pow])
theorem ev_lnot (hl : evalT env l = .ok (laneV a)) : evalT env (.unot .b64 l) = .ok (laneV (~~~a)) := by
  simp [evalT, hl, Except.bind, bind, asUint, laneV, UW.bits]

/-- Small sums and products of indices. -/
theorem ev_iadd {x y : ℕ} (hl : evalT env l = .ok (.uint .b32 x)) (hr : evalT env r = .ok (.uint .b32 y)) (h : x + y < 2 ^ 32) : evalT env (uadd l r) = .ok (.uint .b32 (x + y)) := ev_uadd hl hr h
theorem ev_imul {x y : ℕ} (hl : evalT env l = .ok (.uint .b32 x)) (hr : evalT env r = .ok (.uint .b32 y)) (h : x * y < 2 ^ 32) : evalT env (umul l r) = .ok (.uint .b32 (x * y)) := ev_umul hl hr h
theorem ev_isub {x y : ℕ} (hl : evalT env l = .ok (.uint .b32 x)) (hr : evalT env r = .ok (.uint .b32 y)) (h : y ≤ x) (hx : x < 2 ^ 32) : evalT env (usub l r) = .ok (.uint .b32 (x - y)) := ev_usub hl hr h hx
end

theorem wp_setLane {σ : TState p} {x : TId} {n k : ℕ} {i e : TExpr (ZMod p)} {f : ℕ → Lane} (g : ℕ → Lane) {a : Lane} {ss : List (SStmt (ZMod p))} {R : Except Fault (TState p) → Prop}
    (h : σ.env x = some (lanesF n f)) (hi : evalT σ.env i = .ok (.uint .b32 k)) (hk : k < n) (he : evalT σ.env e = .ok (laneV a)) (hg : ∀ j < n, g j = if j = k then a else f j)
    (hw : WP O P (σ.set x (lanesF n g)) ss R) : WP O P σ (setAt x n u64 i e :: ss) R :=
  wp_def he (setA_lane h hi hk hg) hw

theorem wp_callLane {σ : TState p} {x : TId} {n k : ℕ} {key : ℕ} {i : TExpr (ZMod p)} {args : List (TExpr (ZMod p))} {f : ℕ → Lane} (g : ℕ → Lane) {a : Lane} {ss : List (SStmt (ZMod p))} {R : Except Fault (TState p) → Prop}
    {fn : Inst (ZMod p)} {vs : List (AVal (ZMod p))} (h : σ.env x = some (lanesF n f)) (hi : evalT σ.env i = .ok (.uint .b32 k)) (hk : k < n) (ha : evalL σ.env args = .ok vs)
    (hP : P key [] (args.map TExpr.ty) u64 = some (.here fn)) (hc : CallsTo O P fn vs (.ok (laneV a))) (hg : ∀ j < n, g j = if j = k then a else f j)
    (hw : WP O P (σ.set x (lanesF n g)) ss R) : WP O P σ (.call (.select (.ident x (.array n u64)) i) u64 key [] args :: ss) R := by
  refine wp_call (cwp_here [] evL_nil ha hP (FWP.mono (callsTo_iff.1 hc) ?_))
  rintro r rfl
  exact ⟨_, setA_lane h hi hk hg, hw⟩

/-! ### Rotations and byte order -/

theorem rotl64_spec {n : ℕ} (hn : n < 64) (a : Lane) : CallsTo O P rotl64 [laneV a, .uint .b32 n] (.ok (laneV (a.rotateLeft n))) := by
  rw [callsTo_iff]
  refine fwp (wp_nil ?_)
  refine (ev_lor (ev_lshl (ev_l lk(rfl)) (ev_uv lk(rfl) (by omega))) (ev_lshr (ev_l lk(rfl)) (ev_isub ev_ul (ev_uv lk(rfl) (by omega)) (by omega) (by omega)))).trans ?_
  rw [BitVec.rotateLeft, Nat.mod_eq_of_lt hn, BitVec.rotateLeftAux]

/-- A lane of 8 bytes, the most significant one first. -/
def cat8 (f : ℕ → Byte) : Lane := f 0 ++ f 1 ++ f 2 ++ f 3 ++ f 4 ++ f 5 ++ f 6 ++ f 7

theorem cat8_getLsbD (f : ℕ → Byte) (i : ℕ) (hi : i < 64) : (cat8 f).getLsbD i = (f (7 - i / 8)).getLsbD (i % 8) := by
  have h : (cat8 f).getLsbD i = (f 0 ++ f 1 ++ f 2 ++ f 3 ++ f 4 ++ f 5 ++ f 6 ++ f 7).getLsbD i := rfl
  rw [h]
  simp only [BitVec.getLsbD_append]
  interval_cases i <;> simp

/-- The byte `j` of a lane, from the most significant one. -/
def byteAt (a : Lane) (j : ℕ) : Byte := a.extractLsb' (8 * (7 - j)) 8

theorem cat8_byteAt (a : Lane) : cat8 (byteAt a) = a := by
  apply BitVec.eq_of_getLsbD_eq
  intro i hi
  rw [cat8_getLsbD _ _ hi]
  interval_cases i <;> simp [byteAt, BitVec.getElem_extractLsb']

theorem byteAt_cat8 (f : ℕ → Byte) {j : ℕ} (hj : j < 8) : byteAt (cat8 f) j = f j := by
  apply BitVec.eq_of_getLsbD_eq
  intro i hi
  rw [byteAt, BitVec.getLsbD_extractLsb', cat8_getLsbD _ _ (by omega)]
  rw [show (8 * (7 - j) + i) / 8 = 7 - j by omega, show (8 * (7 - j) + i) % 8 = i by omega, show 7 - (7 - j) = j by omega]
  simp [hi]

/-- The result of `swap_u64`. -/
def bswap (a : Lane) : Lane := cat8 fun j => byteAt a (7 - j)

theorem cat8_congr {f g : ℕ → Byte} (h : ∀ j < 8, f j = g j) : cat8 f = cat8 g := by
  simp only [cat8, h 0 (by omega), h 1 (by omega), h 2 (by omega), h 3 (by omega), h 4 (by omega), h 5 (by omega), h 6 (by omega), h 7 (by omega)]

theorem byteAt_bswap (a : Lane) {j : ℕ} (hj : j < 8) : byteAt (bswap a) j = byteAt a (7 - j) := byteAt_cat8 _ hj

def swapExpr1 (v : Lane) : Lane := ((v <<< 8) &&& 0xFF00FF00FF00FF00#64) ||| ((v >>> 8) &&& 0x00FF00FF00FF00FF#64)
def swapExpr2 (v : Lane) : Lane := ((v <<< 16) &&& 0xFFFF0000FFFF0000#64) ||| ((v >>> 16) &&& 0x0000FFFF0000FFFF#64)

theorem swapExpr_eq (a : Lane) : (swapExpr2 (swapExpr1 a) <<< 32) ||| (swapExpr2 (swapExpr1 a) >>> 32) = bswap a := by
  apply BitVec.eq_of_getLsbD_eq
  intro i hi
  rw [bswap, cat8_getLsbD _ _ hi]
  interval_cases i <;> simp [swapExpr1, swapExpr2, byteAt, BitVec.getElem_extractLsb']

theorem swapU64_spec (a : Lane) : CallsTo O P swapU64 [laneV a] (.ok (laneV (bswap a))) := by
  rw [callsTo_iff, ← swapExpr_eq]
  refine fwp (wp_var (v := laneV (swapExpr1 a)) ?_ (wp_var (v := laneV (swapExpr2 (swapExpr1 a))) ?_ (wp_nil ?_)))
  · exact ev_lor (ev_land (ev_lshl (ev_l lk(rfl)) ev_ul) (ev_ll _ (by norm_num))) (ev_land (ev_lshr (ev_l lk(rfl)) ev_ul) (ev_ll _ (by norm_num)))
  · exact ev_lor (ev_land (ev_lshl (ev_l lk(rfl)) ev_ul) (ev_ll _ (by norm_num))) (ev_land (ev_lshr (ev_l lk(rfl)) ev_ul) (ev_ll _ (by norm_num)))
  · exact ev_lor (ev_lshl (ev_l lk(rfl)) ev_ul) (ev_lshr (ev_l lk(rfl)) ev_ul)

/-! ### The permutation -/

/-- The lane `k` of an array. -/
def flat (A : Keccak.State) (k : ℕ) : Lane := A (Fin.ofNat 5 k) (Fin.ofNat 5 (k / 5))

theorem wp_swapLoop (hP : Imports P sha3) {σ : TState p} {f : ℕ → Lane} {ss : List (SStmt (ZMod p))} {R : Except Fault (TState p) → Prop} (h : σ.env 0 = some (lanesF 25 f))
    (Q : TState p → Prop) (hQ : Q σ) (hQ0 : ∀ σ v, Q σ → Q (σ.set 0 v)) (hQ3 : ∀ σ v, Q σ → Q (σ.set 3 v))
    (hw : ∀ σ', Q σ' → σ'.env 0 = some (lanesF 25 fun k => bswap (f k)) → WP O P σ' ss R) : WP O P σ (swapLoop :: ss) R := by
  refine wp_for (l := 0) (h := 25) (fun i σ => Q σ ∧ σ.env 0 = some (lanesF 25 fun k => if k < i then bswap (f k) else f k)) ev_ul ev_ul (by omega) ?_ ?_ ?_
  · refine ⟨hQ, ?_⟩
    rw [h]
    rfl
  · rintro i σ - hi ⟨hQ, e0⟩
    have e0' : (σ.set 3 (.uint .b32 i)).env 0 = some (lanesF 25 fun k => if k < i then bswap (f k) else f k) := e0
    refine wp_callLane (fun k => if k < i + 1 then bswap (f k) else f k) e0' (ev_uv lk(rfl) (by omega)) hi (evL_cons (ev_lsel e0' (ev_uv lk(rfl) (by omega)) hi) evL_nil) (hP _ _ _ _ _ rfl) (swapU64_spec _) ?_ (wp_nil ⟨hQ0 _ _ (hQ3 _ _ hQ), rfl⟩)
    intro j _
    rw [if_neg (show ¬ i < i by omega)]
    by_cases hj : j = i
    · subst hj; rw [if_pos (by omega), if_pos rfl]
    · rw [if_neg hj]
      by_cases h2 : j < i
      · rw [if_pos h2, if_pos (by omega)]
      · rw [if_neg h2, if_neg (by omega)]
  · rintro σ ⟨hQ, e0⟩
    refine hw σ hQ (e0.trans ?_)
    rw [lanesF_congr fun k hk => if_pos hk]

/-! #### The steps -/

theorem flat_theta (A : Keccak.State) : ∀ k < 25, flat (theta A) k = flat A k ^^^ D A (Fin.ofNat 5 k) := fun _ _ => rfl

theorem flat_C (A : Keccak.State) : ∀ k < 5, flat A k ^^^ flat A (k + 5) ^^^ flat A (k + 10) ^^^ flat A (k + 15) ^^^ flat A (k + 20) = C A (Fin.ofNat 5 k) := by
  intro k hk
  interval_cases k <;> rfl

theorem flat_D (A : Keccak.State) : ∀ k < 5, C A (Fin.ofNat 5 ((k + 4) % 5)) ^^^ (C A (Fin.ofNat 5 ((k + 1) % 5))).rotateLeft 1 = D A (Fin.ofNat 5 k) := by
  intro k hk
  interval_cases k <;> rfl

/-- The lane which is rotated in step `i`. -/
def piSrc (i : ℕ) : ℕ := (1 :: keccakPi).getD i 0

theorem piSrc_succ : ∀ i < 24, piSrc (i + 1) = keccakPi.getD i 0 := by decide +kernel

theorem pi_facts : ∀ i < 24, keccakPi.getD i 0 < 25 ∧ keccakPi.idxOf (keccakPi.getD i 0) = i := by decide +kernel
theorem pi_idx : ∀ k < 25, k ≠ 0 → keccakPi.idxOf k < 24 ∧ keccakPi.getD (keccakPi.idxOf k) 0 = k := by decide +kernel

theorem flat_rhoPi_index : ∀ i < 24,
    offset (Fin.ofNat 5 (keccakPi.getD i 0) + 3 * Fin.ofNat 5 (keccakPi.getD i 0 / 5)) (Fin.ofNat 5 (keccakPi.getD i 0)) % 64 = keccakRho.getD i 0 % 64 ∧
    (Fin.ofNat 5 (keccakPi.getD i 0) + 3 * Fin.ofNat 5 (keccakPi.getD i 0 / 5) : Fin 5) = Fin.ofNat 5 (piSrc i) ∧ (Fin.ofNat 5 (keccakPi.getD i 0) : Fin 5) = Fin.ofNat 5 (piSrc i / 5) := by decide +kernel

theorem flat_rhoPi (A : Keccak.State) (i : ℕ) (hi : i < 24) : flat (pi (rho A)) (keccakPi.getD i 0) = (flat A (piSrc i)).rotateLeft (keccakRho.getD i 0) := by
  obtain ⟨h1, h2, h3⟩ := flat_rhoPi_index i hi
  rw [flat, pi, rho, BitVec.rotateLeft, h1, h2, h3]
  rfl

theorem flat_rhoPi_zero (A : Keccak.State) : flat (pi (rho A)) 0 = flat A 0 := by
  have : offset 0 0 = 0 := by decide +kernel
  change (A 0 0).rotateLeft (offset 0 0) = A 0 0
  rw [this]
  simp [BitVec.rotateLeft, BitVec.rotateLeftAux, BitVec.ushiftRight_eq_zero (x := A 0 0) (n := 64) (le_refl _)]

theorem flat_chi (A : Keccak.State) : ∀ i < 5, ∀ j < 5, flat (chi A) (i * 5 + j) = flat A (i * 5 + j) ^^^ (~~~flat A (i * 5 + (j + 1) % 5) &&& flat A (i * 5 + (j + 2) % 5)) := by
  intro i hi j hj
  interval_cases i <;> interval_cases j <;> rfl

theorem flat_iota (A : Keccak.State) (r : ℕ) : ∀ k < 25, flat (iota r A) k = if k = 0 then flat A 0 ^^^ RC r else flat A k := by
  intro k hk
  interval_cases k <;> rfl

theorem keccakRC_eq : ∀ i < 24, keccakRC[i]? = some (RC i).toNat := by decide +kernel

theorem wp_keccakRound (hP : Imports P sha3) {σ : TState p} {A : Keccak.State} {g : ℕ → Lane} {r : ℕ} (hr : r < 24) (h0 : σ.env 0 = some (lanesF 25 (flat A))) (h1 : σ.env 1 = some (lanesF 5 g))
    (h4 : σ.env 4 = some (.uint .b32 r)) {R : Except Fault (TState p) → Prop} (hR : ∀ σ', (∃ g, σ'.env 1 = some (lanesF 5 g)) → σ'.env 0 = some (lanesF 25 (flat (round r A))) → R (.ok σ')) :
    WP O P σ keccakRound R := by
  rw [keccakRound]
  -- theta
  refine wp_for (l := 0) (h := 5) (fun i σ => σ.env 0 = some (lanesF 25 (flat A)) ∧ σ.env 4 = some (.uint .b32 r) ∧ ∃ g, σ.env 1 = some (lanesF 5 g) ∧ ∀ k < i, g k = C A (Fin.ofNat 5 k)) ev_ul ev_ul (by omega)
    ⟨h0, h4, g, h1, fun k hk => absurd hk (by omega)⟩ ?_ ?_
  · clear h0 h1 h4 g σ
    rintro i σ - hi ⟨h0, h4, g, h1, hg⟩
    refine wp_setLane (fun k => if k = i then C A (Fin.ofNat 5 i) else g k) (a := C A (Fin.ofNat 5 i)) lk(h1) (ev_uv lk(rfl) (by omega)) hi ?_ (fun _ _ => rfl) (wp_nil ⟨h0, h4, _, rfl, ?_⟩)
    · rw [← flat_C A i hi]
      have hv : ∀ (m : ℕ), m ≤ 20 → evalT (σ.set 3 (.uint .b32 i)).env (lsel 0 25 (uadd (uv 3) (ul m))) = .ok (laneV (flat A (i + m))) := by
        intro m hm
        exact ev_lsel lk(h0) (ev_iadd (ev_uv lk(rfl) (by omega)) ev_ul (by omega)) (by omega)
      exact ev_lxor (ev_lxor (ev_lxor (ev_lxor (ev_lsel lk(h0) (ev_uv lk(rfl) (by omega)) (by omega)) (hv 5 (by omega))) (hv 10 (by omega))) (hv 15 (by omega))) (hv 20 (by omega))
    · intro k hk
      by_cases h : k = i
      · simp [h]
      · simp only [h, if_false]; exact hg k (by omega)
  clear h0 h1 h4 g σ
  rintro σ ⟨h0, h4, g, h1, hg⟩
  refine wp_for (l := 0) (h := 5) (fun i σ => σ.env 4 = some (.uint .b32 r) ∧ σ.env 1 = some (lanesF 5 g) ∧ σ.env 0 = some (lanesF 25 fun k => if k % 5 < i then flat (theta A) k else flat A k)) ev_ul ev_ul (by omega)
    ⟨h4, h1, h0.trans rfl⟩ ?_ ?_
  · clear h0 h1 h4 σ
    rintro i σ - hi ⟨h4, h1, h0⟩
    refine wp_callTo (v := laneV ((C A (Fin.ofNat 5 ((i + 1) % 5))).rotateLeft 1)) (vs := [laneV (C A (Fin.ofNat 5 ((i + 1) % 5))), .uint .b32 1]) ?_ (hP _ _ _ _ _ rfl) (rotl64_spec (by omega) _) ?_
    · rw [← hg ((i + 1) % 5) (by omega)]
      exact evL_cons (ev_lsel lk(h1) (ev_urem (ev_iadd (ev_uv lk(rfl) (by omega)) ev_ul (by omega)) ev_ul (by omega)) (by omega)) (evL_cons ev_ul evL_nil)
    refine wp_var (v := laneV (D A (Fin.ofNat 5 i))) ?_ ?_
    · rw [← flat_D A i hi, ← hg ((i + 4) % 5) (by omega)]
      exact ev_lxor (ev_lsel lk(h1) (ev_urem (ev_iadd (ev_uv lk(rfl) (by omega)) ev_ul (by omega)) ev_ul (by omega)) (by omega)) (ev_l lk(rfl))
    refine wp_for (l := 0) (h := 5) (fun j σ => σ.env 4 = some (.uint .b32 r) ∧ σ.env 1 = some (lanesF 5 g) ∧ σ.env 3 = some (.uint .b32 i) ∧ σ.env 2 = some (laneV (D A (Fin.ofNat 5 i))) ∧
      σ.env 0 = some (lanesF 25 fun k => if k % 5 < i ∨ k % 5 = i ∧ k / 5 < j then flat (theta A) k else flat A k)) ev_ul ev_ul (by omega) ⟨h4, h1, rfl, rfl, ?_⟩ ?_ ?_
    · refine Eq.trans h0 ?_
      simp
    · clear h0 h1 h4 σ
      rintro j σ - hj ⟨h4, h1, h3, h2, h0⟩
      have hi' : evalT (σ.set 5 (.uint .b32 j)).env (uadd (umul (uv 5) (ul 5)) (uv 3)) = .ok (.uint .b32 (j * 5 + i)) :=
        ev_iadd (ev_imul (ev_uv lk(rfl) (by omega)) ev_ul (by omega)) (ev_uv lk(h3) (by omega)) (by omega)
      refine wp_setLane _ lk(h0) hi' (by omega) (ev_lxor (ev_lsel lk(h0) hi' (by omega)) (ev_l lk(h2))) ?_ (wp_nil ⟨h4, h1, h3, h2, rfl⟩)
      intro k hk
      rw [if_neg (show ¬ ((j * 5 + i) % 5 < i ∨ (j * 5 + i) % 5 = i ∧ (j * 5 + i) / 5 < j) by omega)]
      by_cases h : k = j * 5 + i
      · rw [if_pos h, if_pos (by omega), h, flat_theta A _ (by omega), show Fin.ofNat 5 (j * 5 + i) = Fin.ofNat 5 i from Fin.ext (by simp)]
      · rw [if_neg h]
        refine if_congr ?_ rfl rfl
        omega
    · clear h0 h1 h4 σ
      rintro σ ⟨h4, h1, h3, h2, h0⟩
      refine wp_nil ⟨h4, h1, h0.trans ?_⟩
      congr 1
      refine lanesF_congr fun k hk => if_congr ?_ rfl rfl
      omega
  clear h0 h1 h4 σ
  rintro σ ⟨h4, h1, h0⟩
  rw [lanesF_congr fun k hk => if_pos (Nat.mod_lt k (by omega : 0 < 5))] at h0
  simp only [Keccak.round] at hR
  generalize theta A = A at h0 hR
  -- rho and pi
  refine wp_var (ev_lsel lk(h0) ev_ul (by omega)) ?_
  refine wp_for (l := 0) (h := 24) (fun i σ => σ.env 4 = some (.uint .b32 r) ∧ (∃ g, σ.env 1 = some (lanesF 5 g)) ∧ σ.env 2 = some (laneV (flat A (piSrc i))) ∧
    σ.env 0 = some (lanesF 25 fun k => if keccakPi.idxOf k < i then flat (pi (rho A)) k else flat A k)) ev_ul ev_ul (by omega) ⟨h4, ⟨g, h1⟩, rfl, h0.trans rfl⟩ ?_ ?_
  · clear hg h0 h1 h4 g σ
    rintro i σ - hi ⟨h4, ⟨g, h1⟩, h2, h0⟩
    obtain ⟨f1, f2⟩ := pi_facts i hi
    have l1 : keccakPi.length = 24 := rfl
    have l2 : keccakRho.length = 24 := rfl
    refine wp_var (v := .uint .b32 (keccakPi.getD i 0)) (ev_select (k := i) ev_ulits (ev_uv lk(rfl) (by omega)) ?_) ?_
    · rw [List.getElem?_map, List.getElem?_eq_getElem (by omega), List.getD_eq_getElem _ _ (by omega)]; rfl
    refine wp_setLane _ lk(h1) ev_ul (by omega) (ev_lsel lk(h0) (ev_uv lk(rfl) (by omega)) f1) (fun _ _ => rfl) ?_
    refine wp_callLane (k := keccakPi.getD i 0) (fun k => if keccakPi.idxOf k < i + 1 then flat (pi (rho A)) k else flat A k) (vs := [laneV (flat A (piSrc i)), .uint .b32 (keccakRho.getD i 0)]) (by exact h0) (ev_uv lk(rfl) (by omega)) f1 ?_ (hP _ _ _ _ _ rfl)
      (rotl64_spec ?_ _) ?_ ?_
    · refine evL_cons (ev_l lk(h2)) (evL_cons (ev_select (k := i) ev_ulits (ev_uv lk(rfl) (by omega)) ?_) evL_nil)
      rw [List.getElem?_map, List.getElem?_eq_getElem (by omega), List.getD_eq_getElem _ _ (by omega)]; rfl
    · exact (by decide +kernel : ∀ i < 24, keccakRho.getD i 0 < 64) i hi
    · intro k hk
      by_cases h : k = keccakPi.getD i 0
      · rw [if_pos h, h, f2, if_pos (by omega), flat_rhoPi A i hi]
      · rw [if_neg h]
        refine if_congr ?_ rfl rfl
        have : keccakPi.idxOf k ≠ i := by
          intro h2
          rcases Nat.eq_zero_or_pos k with rfl | h3
          · have : keccakPi.idxOf 0 = 24 := by decide +kernel
            omega
          · exact h (by rw [← (pi_idx k hk (by omega)).2, h2])
        omega
    refine wp_var (v := laneV (flat A (piSrc (i + 1)))) ?_ (wp_nil ⟨h4, ⟨_, rfl⟩, rfl, rfl⟩)
    refine (ev_lsel lk(rfl) ev_ul (by omega)).trans ?_
    rw [if_pos rfl, if_neg (by omega), piSrc_succ i hi]
  clear hg h0 h1 h4 g σ
  rintro σ ⟨h4, ⟨g, h1⟩, -, h0⟩
  rw [lanesF_congr (g := flat (pi (rho A))) fun k hk => ?_] at h0
  swap
  · by_cases h : k = 0
    · rw [h, flat_rhoPi_zero, ite_self]
    · rw [if_pos (pi_idx k hk h).1]
  generalize pi (rho A) = A at h0 hR
  -- chi
  refine wp_for (l := 0) (h := 5) (fun i σ => σ.env 4 = some (.uint .b32 r) ∧ (∃ g, σ.env 1 = some (lanesF 5 g)) ∧ σ.env 0 = some (lanesF 25 fun k => if k < 5 * i then flat (chi A) k else flat A k)) ev_ul ev_ul (by omega)
    ⟨h4, ⟨g, h1⟩, h0.trans rfl⟩ ?_ ?_
  · clear h0 h1 h4 g σ
    rintro i σ - hi ⟨h4, ⟨g, h1⟩, h0⟩
    refine wp_for (l := 0) (h := 5) (fun j σ => σ.env 4 = some (.uint .b32 r) ∧ σ.env 3 = some (.uint .b32 i) ∧ σ.env 0 = some (lanesF 25 fun k => if k < 5 * i then flat (chi A) k else flat A k) ∧
      ∃ g, σ.env 1 = some (lanesF 5 g) ∧ ∀ k < j, g k = flat A (i * 5 + k)) ev_ul ev_ul (by omega) ⟨h4, rfl, h0, g, h1, fun k hk => absurd hk (by omega)⟩ ?_ ?_
    · clear h0 h1 h4 g σ
      rintro j σ - hj ⟨h4, h3, h0, g, h1, hg⟩
      refine wp_setLane _ lk(h1) (ev_uv lk(rfl) (by omega)) hj (ev_lsel lk(h0) (ev_iadd (ev_imul (ev_uv lk(h3) (by omega)) ev_ul (by omega)) (ev_uv lk(rfl) (by omega)) (by omega)) (by omega)) (fun _ _ => rfl) (wp_nil ⟨h4, h3, h0, _, rfl, ?_⟩)
      intro k hk
      by_cases h : k = j
      · rw [if_pos h, if_neg (by omega), h]
      · rw [if_neg h]; exact hg k (by omega)
    clear h0 h1 h4 g σ
    rintro σ ⟨h4, h3, h0, g, h1, hg⟩
    refine wp_for (l := 0) (h := 5) (fun j σ => σ.env 4 = some (.uint .b32 r) ∧ σ.env 3 = some (.uint .b32 i) ∧ σ.env 1 = some (lanesF 5 g) ∧
      σ.env 0 = some (lanesF 25 fun k => if k < 5 * i + j then flat (chi A) k else flat A k)) ev_ul ev_ul (by omega) ⟨h4, h3, h1, h0⟩ ?_ ?_
    · clear h0 h1 h4 h3 σ
      rintro j σ - hj ⟨h4, h3, h1, h0⟩
      refine wp_var (ev_iadd (ev_imul (x := i) (ev_uv lk(h3) (by omega)) ev_ul (by omega)) (ev_uv (n := j) lk(rfl) (by omega)) (by omega)) ?_
      refine wp_setLane _ lk(h0) (ev_uv (n := i * 5 + j) lk(rfl) (by omega)) (by omega) (ev_lxor (ev_lsel lk(h0) (ev_uv (n := i * 5 + j) lk(rfl) (by omega)) (by omega))
        (ev_land (ev_lnot (ev_lsel lk(h1) (ev_urem (ev_iadd (ev_uv (n := j) lk(rfl) (by omega)) ev_ul (by omega)) ev_ul (by omega)) (Nat.mod_lt _ (by omega))))
          (ev_lsel lk(h1) (ev_urem (ev_iadd (ev_uv (n := j) lk(rfl) (by omega)) ev_ul (by omega)) ev_ul (by omega)) (Nat.mod_lt _ (by omega))))) ?_ (wp_nil ⟨h4, h3, h1, rfl⟩)
      intro k hk
      rw [if_neg (show ¬ i * 5 + j < 5 * i + j by omega), hg _ (Nat.mod_lt _ (by omega)), hg _ (Nat.mod_lt _ (by omega))]
      by_cases h : k = i * 5 + j
      · rw [if_pos h, if_pos (by omega), h, flat_chi A i hi j hj]
      · rw [if_neg h]
        refine if_congr ?_ rfl rfl
        omega
    · clear h0 h1 h4 h3 σ
      rintro σ ⟨h4, h3, h1, h0⟩
      exact wp_nil ⟨h4, ⟨g, h1⟩, h0⟩
  clear h0 h1 h4 g σ
  rintro σ ⟨h4, h1, h0⟩
  rw [lanesF_congr fun k hk => if_pos hk] at h0
  -- iota
  refine wp_setLane (flat (iota r (chi A))) lk(h0) ev_ul (by omega) (ev_lxor (ev_lsel lk(h0) ev_ul (by omega)) (b := RC r) (ev_select (k := r) (ev_array (vs := keccakRC.map (AVal.uint .b64)) ?_) (ev_uv lk(h4) (by omega)) ?_)) (flat_iota _ _) (wp_nil (hR _ h1 rfl))
  · have : ∀ ns : List ℕ, evalS σ.env (ns.map fun n => .expr (ll (p := p) n)) = .ok (ns.map (AVal.uint .b64)) := by
      intro ns
      induction ns with
      | nil => exact evS_nil
      | cons n ns ih => exact evS_expr ev_uval ih
    exact this _
  · rw [List.getElem?_map, keccakRC_eq r hr]; rfl

theorem keccakf_spec (hP : Imports P sha3) (f : ℕ → Lane) (A : Keccak.State) (hA : ∀ k < 25, bswap (f k) = flat A k) : CallsTo O P keccakf [lanesF 25 f] (.ok (lanesF 25 fun k => bswap (flat (keccakF A) k))) := by
  rw [callsTo_iff]
  refine fwp (wp_var (v := lanesF 5 fun _ => 0) ?_ (wp_var (v := laneV 0) (ev_ll _ (by norm_num)) ?_))
  · exact (ev_repeat (ev_ll _ (by norm_num)) ev_ul).trans (congrArg _ (arrF_replicate _ _))
  refine wp_swapLoop hP (f := f) lk(rfl) (fun σ => σ.env 1 = some (lanesF 5 fun _ => 0)) rfl (fun _ _ h => h) (fun _ _ h => h) ?_
  intro σ h1 h0
  rw [lanesF_congr hA] at h0
  refine wp_for (l := 0) (h := 24) (fun r σ => (∃ g, σ.env 1 = some (lanesF 5 g)) ∧ σ.env 0 = some (lanesF 25 (flat (rounds A r)))) ev_ul ev_ul (by omega) ⟨⟨_, h1⟩, h0⟩ ?_ ?_
  · clear h0 h1 σ
    rintro r σ - hr ⟨⟨g, h1⟩, h0⟩
    exact wp_keccakRound (σ := σ.set 4 (.uint .b32 r)) hP hr (A := rounds A r) (g := g) lk(h0) lk(h1) rfl fun σ' h1 h0 => ⟨h1, h0⟩
  · clear h0 h1 σ
    rintro σ ⟨-, h0⟩
    refine wp_swapLoop hP h0 (fun _ => True) trivial (fun _ _ _ => trivial) (fun _ _ _ => trivial) fun σ' _ h => wp_nil ?_
    exact ev_ls h

end Zok.Typed.Std
