import Verif.Lemmas.StdMimc
import Verif.Model.StdPoseidon
import Verif.Spec.Poseidon

/-
`hashes/poseidon`.
-/

set_option linter.unusedSectionVars false

namespace Zok.Typed.Std
open Abi
variable {p : ℕ} {Z : Type} [Fact p.Prime] {O : Oracle p Z} {P : Program (ZMod p)}

section
variable {env : TEnv p}

theorem ev_or {l r : TExpr (ZMod p)} {v w : Bool} (hl : evalT env l = .ok (.bool v)) (hr : evalT env r = .ok (.bool w)) : evalT env (.bbin .or l r) = .ok (.bool (v || w)) := by
  simp [evalT, hl, hr, bind, Except.bind, asBool]

theorem ev_ule {l r : TExpr (ZMod p)} {a b : ℕ} (hl : evalT env l = .ok (.uint .b32 a)) (hr : evalT env r = .ok (.uint .b32 b)) (ht : l.ty = u32) : evalT env (.ucmp .le l r) = .ok (.bool (decide (a ≤ b))) := by
  simp [evalT, hl, hr, ht, bind, Except.bind, asUintOf, asUint]

theorem ev_idiv {l r : TExpr (ZMod p)} {a b : ℕ} (hl : evalT env l = .ok (.uint .b32 a)) (hr : evalT env r = .ok (.uint .b32 b)) (hb : b ≠ 0) : evalT env (udiv l r) = .ok (.uint .b32 (a / b)) :=
  ev_ubin hl hr (by simp [UOp.eval, hb])

theorem ev_fvs {x : TId} {n : ℕ} {f : ℕ → ZMod p} (h : env x = some (fieldsF n f)) : evalT env (fvs x n) = .ok (fieldsF n f) := ev_fs h

/-- A matrix as a value. -/
def matF (m n : ℕ) (f : ℕ → ℕ → ZMod p) : AVal (ZMod p) := arrF m fun i => fieldsF n (f i)

theorem ev_mat {x : TId} {m n : ℕ} {f : ℕ → ℕ → ZMod p} (h : env x = some (matF m n f)) : evalT env (.ident x (.array m (fields n))) = .ok (matF m n f) := ev_ident h (hasType_arrF fun _ _ => hasType_fieldsF)

theorem ev_mselAt {x : TId} {m n k l : ℕ} {f : ℕ → ℕ → ZMod p} {i j : TExpr (ZMod p)} (h : env x = some (matF m n f)) (hi : evalT env i = .ok (.uint .b32 k)) (hj : evalT env j = .ok (.uint .b32 l)) (hk : k < m) (hl : l < n) :
    evalT env (.select .field (.select (fields n) (.ident x (.array m (fields n))) i) j) = .ok (.field (f k l)) := by
  refine ev_select (ev_selF (f := fun i => fieldsF n (f i)) h (fun _ _ => hasType_fieldsF) hi hk) hj ?_
  simp [hl]
end

theorem ark_spec {N it : ℕ} (h : it + N ≤ 497) (s c : ℕ → ZMod p) : CallsTo O P (ark N) [fieldsF N s, fieldsF 497 c, .uint .b32 it] (.ok (fieldsF N fun i => s i + c (it + i))) := by
  rw [callsTo_iff]
  refine fwp ?_
  refine wp_for (l := 0) (h := N) (fun i σ => σ.env 1 = some (fieldsF 497 c) ∧ σ.env 2 = some (.uint .b32 it) ∧ σ.env 0 = some (fieldsF N fun k => if k < i then s k + c (it + k) else s k)) ev_ul (ev_uv lk(rfl) (by omega)) (by omega)
    ⟨rfl, rfl, rfl⟩ ?_ ?_
  · rintro i σ - hi ⟨e1, e2, e0⟩
    refine wp_setField lk(e0) (ev_uv lk(rfl) (by omega)) hi (ev_add (ev_fselAt lk(e0) (ev_uv lk(rfl) (by omega)) hi) (ev_fselAt lk(e1) (ev_iadd (ev_uv lk(e2) (by omega)) (ev_uv lk(rfl) (by omega)) (by omega)) (by omega))) (wp_nil ⟨e1, e2, ?_⟩)
    refine congrArg some (fieldsF_congr fun k hk => ?_)
    rw [upd]
    by_cases h1 : k = i
    · subst h1
      simp
    · rw [if_neg h1]
      by_cases h2 : k < i
      · rw [if_pos h2, if_pos (by omega)]
      · rw [if_neg h2, if_neg (by omega)]
  · rintro σ ⟨-, -, e0⟩
    refine wp_nil ((ev_fvs lk(e0)).trans ?_)
    rw [fieldsF_congr fun k hk => if_pos hk]

theorem sbox_spec {N f rp r : ℕ} (h1 : 1 ≤ N) (hN : N < 2 ^ 32) (hf : f / 2 + rp < 2 ^ 32) (hf' : f < 2 ^ 32) (hr : r < 2 ^ 32) (s : ℕ → ZMod p) :
    CallsTo O P (sbox N) [fieldsF N s, .uint .b32 f, .uint .b32 rp, .uint .b32 r] (.ok (fieldsF N fun i => if (r < f / 2 ∨ f / 2 + rp ≤ r) ∨ i = 0 then s i ^ 5 else s i)) := by
  rw [callsTo_iff]
  refine fwp ?_
  refine wp_setField (f := s) lk(rfl) ev_ul (by omega) (ev_pow (ev_fselAt lk(rfl) ev_ul (by omega)) ev_ul) ?_
  refine wp_for (l := 1) (h := N) (fun i σ => σ.env 1 = some (.uint .b32 f) ∧ σ.env 2 = some (.uint .b32 rp) ∧ σ.env 3 = some (.uint .b32 r) ∧
    σ.env 0 = some (fieldsF N fun k => if k < i ∧ ((r < f / 2 ∨ f / 2 + rp ≤ r) ∨ k = 0) then s k ^ 5 else s k)) ev_ul (ev_uv lk(rfl) (by omega)) (by omega)
    ⟨rfl, rfl, rfl, ?_⟩ ?_ ?_
  · refine congrArg some (fieldsF_congr fun k hk => ?_)
    rw [upd]
    by_cases h : k = 0
    · rw [if_pos h, if_pos ⟨by omega, .inr h⟩, h]
    · rw [if_neg h, if_neg fun h' => by omega]
  · rintro i σ h1i hi ⟨e1, e2, e3, e0⟩
    have hsel : ∀ σ : TState p, σ.env 0 = some (fieldsF N fun k => if k < i ∧ ((r < f / 2 ∨ f / 2 + rp ≤ r) ∨ k = 0) then s k ^ 5 else s k) → σ.env 4 = some (.uint .b32 i) → evalT σ.env (fselAt 0 N (uv 4)) = .ok (.field (s i)) := by
      intro σ e0 e4
      refine (ev_fselAt e0 (ev_uv e4 (by omega)) hi).trans ?_
      beta_reduce
      rw [if_neg fun h => by omega]
    refine wp_setField (a := if r < f / 2 ∨ f / 2 + rp ≤ r then s i ^ 5 else s i) lk(e0) (ev_uv lk(rfl) (by omega)) hi ?_ (wp_nil ⟨e1, e2, e3, ?_⟩)
    · refine (ev_cond (ev_or (ev_ult (ev_uv lk(e3) hr) (ev_idiv (ev_uv lk(e1) hf') ev_ul (by omega)) rfl) (ev_ule (ev_iadd (ev_idiv (ev_uv lk(e1) hf') ev_ul (by omega)) (ev_uv lk(e2) (by omega)) hf) (ev_uv lk(e3) hr) rfl))
        (ev_pow (hsel _ lk(e0) lk(rfl)) ev_ul) (hsel _ lk(e0) lk(rfl))).trans ?_
      by_cases h : r < f / 2 ∨ f / 2 + rp ≤ r
      · rw [if_pos h]
        rcases h with h | h <;> simp [h]
      · rw [if_neg h]
        rw [not_or] at h
        simp [h.1, h.2]
    · refine congrArg some (fieldsF_congr fun k hk => ?_)
      rw [upd]
      by_cases h : k = i
      · rw [if_pos h]
        by_cases h2 : r < f / 2 ∨ f / 2 + rp ≤ r
        · rw [if_pos h2, if_pos ⟨by omega, .inl h2⟩, h]
        · rw [if_neg h2, if_neg (by omega), h]
      · rw [if_neg h]
        by_cases h3 : k < i ∧ ((r < f / 2 ∨ f / 2 + rp ≤ r) ∨ k = 0)
        · rw [if_pos h3, if_pos ⟨by omega, h3.2⟩]
        · rw [if_neg h3, if_neg fun h4 => h3 ⟨by omega, h4.2⟩]
  · rintro σ ⟨-, -, -, e0⟩
    refine wp_nil ((ev_fvs lk(e0)).trans ?_)
    congr 1
    refine fieldsF_congr fun k hk => ?_
    by_cases h : (r < f / 2 ∨ f / 2 + rp ≤ r) ∨ k = 0
    · rw [if_pos h, if_pos ⟨hk, h⟩]
    · rw [if_neg h, if_neg fun h' => h h'.2]

theorem mix_spec {N : ℕ} (h7 : N ≤ 7) (s : ℕ → ZMod p) (m : ℕ → ℕ → ZMod p) : CallsTo O P (mix N) [fieldsF N s, matF 7 7 m] (.ok (fieldsF N fun i => ∑ j ∈ Finset.range N, s j * m i j)) := by
  rw [callsTo_iff]
  refine fwp (wp_var (ev_fzeros (ev_uv (n := N) lk(rfl) (by omega))) ?_)
  refine wp_for (l := 0) (h := N) (fun i σ => σ.env 0 = some (fieldsF N s) ∧ σ.env 1 = some (matF 7 7 m) ∧ σ.env 9 = some (.uint .b32 N) ∧ ∃ g, σ.env 2 = some (fieldsF N g) ∧ ∀ k < i, g k = ∑ j ∈ Finset.range N, s j * m k j) ev_ul (ev_uv lk(rfl) (by omega)) (by omega)
    ⟨rfl, rfl, rfl, _, rfl, fun k hk => absurd hk (by omega)⟩ ?_ ?_
  · rintro i σ - hi ⟨e0, e1, e9, g, e2, hg⟩
    refine wp_var ev_fval ?_
    refine wp_for (l := 0) (h := N) (fun j σ => σ.env 0 = some (fieldsF N s) ∧ σ.env 1 = some (matF 7 7 m) ∧ σ.env 9 = some (.uint .b32 N) ∧ σ.env 2 = some (fieldsF N g) ∧ σ.env 3 = some (.uint .b32 i) ∧ σ.env 4 = some (.field (∑ j ∈ Finset.range j, s j * m i j)))
      ev_ul (ev_uv lk(e9) (by omega)) (by omega) ⟨e0, e1, e9, e2, rfl, rfl⟩ ?_ ?_
    · clear e0 e1 e9 e2 σ
      rintro j σ - hj ⟨e0, e1, e9, e2, e3, e4⟩
      refine wp_var (ev_add (ev_fv lk(e4)) (ev_mul (ev_fselAt lk(e0) (ev_uv lk(rfl) (by omega)) hj) (ev_mselAt lk(e1) (ev_uv lk(e3) (by omega)) (ev_uv lk(rfl) (by omega)) (by omega) (by omega)))) (wp_nil ⟨e0, e1, e9, e2, e3, ?_⟩)
      rw [Finset.sum_range_succ]; rfl
    · clear e0 e1 e9 e2 σ
      rintro σ ⟨e0, e1, e9, e2, e3, e4⟩
      refine wp_setField lk(e2) (ev_uv lk(e3) (by omega)) hi (ev_fv lk(e4)) (wp_nil ⟨e0, e1, e9, _, rfl, fun k hk => ?_⟩)
      by_cases h : k = i
      · rw [h, upd_same]
      · rw [upd_ne _ _ h, hg k (by omega)]
  · rintro σ ⟨-, -, -, g, e2, hg⟩
    refine wp_nil ((ev_fvs lk(e2)).trans ?_)
    rw [fieldsF_congr hg]

/-! ### The hash -/

/-- The constants and the matrix of the code for a state of `t` elements. -/
def pC (p t n : ℕ) : ZMod p := (((poseidonC.getD (t - 2) []).getD n 0 : ℕ) : ZMod p)
def pM (p t i j : ℕ) : ZMod p := ((((poseidonM.getD (t - 2) []).getD i []).getD j 0 : ℕ) : ZMod p)
def pMat (p t : ℕ) : Matrix (Fin t) (Fin t) (ZMod p) := fun i j => pM p t i j

theorem poseidonC_len : poseidonC.length = 6 := rfl
theorem poseidonC_row : ∀ k < 6, (poseidonC.getD k []).length = 497 := by decide +kernel
theorem poseidonM_row : ∀ k < 6, (poseidonM.getD k []).length = 7 := by decide +kernel
theorem poseidonM_row' : ∀ k < 6, ∀ i < 7, ((poseidonM.getD k []).getD i []).length = 7 := by decide +kernel

theorem flits_eq (r : List ℕ) : AVal.array (r.map fun n : ℕ => .field (n : ZMod p)) = fieldsF r.length fun k => ((r.getD k 0 : ℕ) : ZMod p) := by
  have := fieldsV_eq (r.map fun n : ℕ => (n : ZMod p))
  rw [List.map_map, List.length_map] at this
  refine this.trans (fieldsF_congr fun k hk => ?_)
  simp [hk]

section
variable {env : TEnv p}
theorem ev_flits {r : List ℕ} : evalT env (flits r) = .ok (fieldsF r.length fun k => ((r.getD k 0 : ℕ) : ZMod p)) := by
  rw [flits, ev_array (evS_flits r), flits_eq]

theorem evS_frows : ∀ ls : List (List ℕ), evalS env (ls.map fun r => .expr (flits (p := p) r)) = .ok (ls.map fun r => fieldsF r.length fun k => ((r.getD k 0 : ℕ) : ZMod p))
  | [] => evS_nil
  | _ :: ls => evS_expr ev_flits (evS_frows ls)

theorem evS_fmats : ∀ ls : List (List (List ℕ)), evalS env (ls.map fun m => .expr (.array (fields 7) 7 (m.map fun r => .expr (flits (p := p) r)))) = .ok (ls.map fun m => .array (m.map fun r => fieldsF r.length fun k => ((r.getD k 0 : ℕ) : ZMod p)))
  | [] => evS_nil
  | _ :: ls => evS_expr (ev_array (evS_frows _)) (evS_fmats ls)

theorem ev_poseidonC {i : TExpr (ZMod p)} {t : ℕ} (hi : evalT env i = .ok (.uint .b32 (t - 2))) (h2 : 2 ≤ t) (h7 : t ≤ 7) : evalT env (.select (fields 497) poseidonCe i) = .ok (fieldsF 497 (pC p t)) := by
  refine ev_select (ev_array (evS_frows _)) hi ?_
  have hl : t - 2 < poseidonC.length := by rw [poseidonC_len]; omega
  have hr := poseidonC_row (t - 2) (by omega)
  rw [List.getD_eq_getElem _ _ hl] at hr
  rw [List.getElem?_map, List.getElem?_eq_getElem hl, Option.map_some, hr]
  refine congrArg some (fieldsF_congr fun k _ => ?_)
  rw [pC, List.getD_eq_getElem _ _ hl]

theorem ev_poseidonM {i : TExpr (ZMod p)} {t : ℕ} (hi : evalT env i = .ok (.uint .b32 (t - 2))) (h2 : 2 ≤ t) (h7 : t ≤ 7) : evalT env (.select (.array 7 (fields 7)) poseidonMe i) = .ok (matF 7 7 (pM p t)) := by
  refine ev_select (ev_array (evS_fmats _)) hi ?_
  have hl : t - 2 < poseidonM.length := by rw [show poseidonM.length = 6 from rfl]; omega
  have hr := poseidonM_row (t - 2) (by omega)
  have hr' := poseidonM_row' (t - 2) (by omega)
  rw [List.getD_eq_getElem _ _ hl] at hr hr'
  rw [List.getElem?_map, List.getElem?_eq_getElem hl, Option.map_some, matF, arrF]
  congr 2
  refine List.ext_getElem (by simp [hr]) fun k h3 h4 => ?_
  simp only [List.length_map] at h3
  have := hr' k (by omega)
  rw [List.getD_eq_getElem _ _ h3] at this
  simp only [List.getElem_map, List.getElem_range, this]
  refine fieldsF_congr fun j _ => ?_
  rw [pM, List.getD_eq_getElem _ _ hl, List.getD_eq_getElem _ _ h3]
end

open Poseidon

/-- A state as a function on numbers. -/
def stF {t : ℕ} (s : Fin t → ZMod p) (k : ℕ) : ZMod p := if h : k < t then s ⟨k, h⟩ else 0

theorem rounds_p : ∀ t, 2 ≤ t → t ≤ 7 → [56, 57, 56, 60, 60, 63, 64, 63][t - 2]? = some (partialRounds t) := by
  intro t h2 h7
  obtain rfl | rfl | rfl | rfl | rfl | rfl : t = 2 ∨ t = 3 ∨ t = 4 ∨ t = 5 ∨ t = 6 ∨ t = 7 := by omega
  all_goals rfl

theorem rounds_bound (t : ℕ) (h2 : 2 ≤ t) (h7 : t ≤ 7) : t * (8 + partialRounds t) ≤ 497 := by
  obtain rfl | rfl | rfl | rfl | rfl | rfl : t = 2 ∨ t = 3 ∨ t = 4 ∨ t = 5 ∨ t = 6 ∨ t = 7 := by omega
  all_goals decide

theorem round_stF {t : ℕ} (c : ℕ → ZMod p) (r rp : ℕ) (s : Fin t → ZMod p) :
    (fieldsF t fun i => ∑ j ∈ Finset.range t, (if (r < 8 / 2 ∨ 8 / 2 + rp ≤ r) ∨ j = 0 then (stF s j + c (r * t + j)) ^ 5 else stF s j + c (r * t + j)) * pM p t i j) =
      fieldsF t (stF (Poseidon.round (pMat p t) (fun i => c (r * t + i)) (r < 4 ∨ 4 + rp ≤ r) s)) := by
  refine fieldsF_congr fun i hi => ?_
  rw [stF, dif_pos hi, Poseidon.round, Matrix.mulVec, dotProduct, Finset.sum_range]
  refine Finset.sum_congr rfl fun j _ => ?_
  rw [mul_comm, stF, dif_pos j.2]
  rfl

theorem poseidon_spec (hP : Imports P poseidonLib) {N : ℕ} (h1 : 1 ≤ N) (h6 : N ≤ 6) (x : Fin N → ZMod p) :
    CallsTo O P (poseidon N) [fieldsF N (stF x)] (.ok (.field (Poseidon.hash (pMat p (N + 1)) (pC p (N + 1)) (partialRounds (N + 1)) x))) := by
  rw [callsTo_iff]
  refine fwp (wp_assert (ev_and (ev_ult ev_ul (ev_uv (n := N) lk(rfl) (by omega)) rfl) (ev_ule (ev_uv (n := N) lk(rfl) (by omega)) ev_ul rfl)) (fun _ => ?_) (fun h => absurd h (by simp; omega)))
  have hrp := rounds_p (N + 1) (by omega) (by omega)
  have hb := rounds_bound (N + 1) (by omega) (by omega)
  generalize partialRounds (N + 1) = rp at hrp hb ⊢
  have hrp2 : rp < 2 ^ 32 := by nlinarith
  refine wp_var (ev_iadd (ev_uv (n := N) lk(rfl) (by omega)) ev_ul (by omega)) (wp_var ev_ulits (wp_var ev_ul ?_))
  have ht : ∀ σ : TState p, σ.env 1 = some (.uint .b32 (N + 1)) → evalT σ.env (usub (uv 1) (ul 2)) = .ok (.uint .b32 (N + 1 - 2)) := fun σ h => ev_isub (ev_uv h (by omega)) ev_ul (by omega) (by omega)
  refine wp_var (v := .uint .b32 rp) ?_ ?_
  · refine ev_select (ev_ident lk(rfl) ?_) (ht _ lk(rfl)) ?_
    · simp [uintsV, HasType, u32, UW.bits]
    · rw [List.getElem?_map, hrp]; rfl
  refine wp_var (ev_poseidonC (ht _ lk(rfl)) (by omega) (by omega)) (wp_var (ev_poseidonM (ht _ lk(rfl)) (by omega) (by omega)) (wp_var (ev_fzeros (ev_uv lk(rfl) (by omega))) ?_))
  refine wp_for (l := 1) (h := N + 1) (fun i σ => σ.env 0 = some (fieldsF N (stF x)) ∧ σ.env 1 = some (.uint .b32 (N + 1)) ∧ σ.env 3 = some (.uint .b32 8) ∧ σ.env 4 = some (.uint .b32 rp) ∧ σ.env 5 = some (fieldsF 497 (pC p (N + 1))) ∧
    σ.env 6 = some (matF 7 7 (pM p (N + 1))) ∧ σ.env 7 = some (fieldsF (N + 1) fun k => if k < i then stF (Fin.cons (0 : ZMod p) x) k else 0)) ev_ul (ev_uv lk(rfl) (by omega)) (by omega) ⟨rfl, rfl, rfl, rfl, rfl, rfl, ?_⟩ ?_ ?_
  · refine congrArg some (fieldsF_congr fun k hk => ?_)
    by_cases h : k < 1
    · obtain rfl : k = 0 := by omega
      rw [if_pos h, stF, dif_pos (by omega)]; rfl
    · rw [if_neg h]
  · rintro i σ h1i hi ⟨e0, e1, e3, e4, e5, e6, e7⟩
    refine wp_setField lk(e7) (ev_uv lk(rfl) (by omega)) hi (ev_fselAt lk(e0) (ev_isub (ev_uv (n := i) lk(rfl) (by omega)) ev_ul (by omega) (by omega)) (by omega)) (wp_nil ⟨e0, e1, e3, e4, e5, e6, ?_⟩)
    refine congrArg some (fieldsF_congr fun k hk => ?_)
    rw [upd]
    by_cases h : k = i
    · subst h
      obtain ⟨j, rfl⟩ : ∃ j, k = j + 1 := ⟨k - 1, by omega⟩
      rw [if_pos rfl, if_pos (by omega), Nat.add_sub_cancel, stF, stF, dif_pos (by omega), dif_pos (by omega)]
      rfl
    · rw [if_neg h]
      by_cases h2 : k < i
      · rw [if_pos h2, if_pos (by omega)]
      · rw [if_neg h2, if_neg (by omega)]
  rintro σ ⟨-, e1, e3, e4, e5, e6, e7⟩
  rw [fieldsF_congr fun k hk => if_pos hk] at e7
  refine wp_for (l := 0) (h := 8 + rp) (fun r σ => σ.env 1 = some (.uint .b32 (N + 1)) ∧ σ.env 3 = some (.uint .b32 8) ∧ σ.env 4 = some (.uint .b32 rp) ∧ σ.env 5 = some (fieldsF 497 (pC p (N + 1))) ∧
    σ.env 6 = some (matF 7 7 (pM p (N + 1))) ∧ σ.env 7 = some (fieldsF (N + 1) (stF (rounds (pMat p (N + 1)) (pC p (N + 1)) rp (Fin.cons (0 : ZMod p) x) r)))) ev_ul (ev_iadd (ev_uv lk(e3) (by omega)) (ev_uv lk(e4) (by omega)) (by nlinarith)) (by omega)
    ⟨e1, e3, e4, e5, e6, e7⟩ ?_ ?_
  · clear e1 e3 e4 e5 e6 e7 σ
    rintro r σ - hr ⟨e1, e3, e4, e5, e6, e7⟩
    have hrt : r * (N + 1) + (N + 1) ≤ 497 := by nlinarith
    refine wp_callTo (evL_cons (ev_fvs lk(e7)) (evL_cons (ev_fvs lk(e5)) (evL_cons (ev_imul (ev_uv (n := r) lk(rfl) (by nlinarith)) (ev_uv lk(e1) (by omega)) (by omega)) evL_nil))) (hP _ _ _ _ _ (if_pos rfl)) (ark_spec hrt _ _) ?_
    refine wp_callTo (evL_cons (ev_fvs lk(rfl)) (evL_cons (ev_uv lk(e3) (by omega)) (evL_cons (ev_uv lk(e4) (by omega)) (evL_cons (ev_uv (n := r) lk(rfl) (by nlinarith)) evL_nil)))) (hP _ _ _ _ _ (if_pos rfl))
      (sbox_spec (by omega) (by omega) (by nlinarith) (by omega) (by nlinarith) _) ?_
    refine wp_callTo (evL_cons (ev_fvs lk(rfl)) (evL_cons (ev_mat lk(e6)) evL_nil)) (hP _ _ _ _ _ (if_pos rfl)) (mix_spec (by omega) _ _) ?_
    refine wp_nil ⟨e1, e3, e4, e5, e6, ?_⟩
    rw [rounds, ← round_stF]; rfl
  · rintro σ ⟨-, -, -, -, -, e7⟩
    refine wp_nil ((ev_fselAt lk(e7) ev_ul (by omega)).trans ?_)
    rw [Poseidon.hash, permute, show 4 + rp + 4 = 8 + rp by omega, stF, dif_pos (by omega)]
    rfl

theorem poseidon_size {N : ℕ} (h : N = 0 ∨ 6 < N) (hN : N < 2 ^ 32) (v : AVal (ZMod p)) : CallsTo O P (poseidon N) [v] (.error .assertionFailed) := by
  rw [callsTo_iff]
  refine fwp (wp_assert (ev_and (ev_ult ev_ul (ev_uv (n := N) lk(rfl) (by omega)) rfl) (ev_ule (ev_uv (n := N) lk(rfl) (by omega)) ev_ul rfl)) (fun h => absurd h (by simp; omega)) (fun h => rfl))

end Zok.Typed.Std
