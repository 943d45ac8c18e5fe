import Verif.Lemmas.StdEcc
import Verif.Lemmas.StdCastsArr
import Verif.Model.StdSha
import Verif.Spec.Words
import Verif.Spec.Sha256

/-
`hashes/sha256`: the compression function.
-/

set_option linter.unusedSectionVars false

namespace Zok.Typed.Std
open Abi Sha256
variable {p : ℕ} {Z : Type} [Fact p.Prime] {O : Oracle p Z} {P : Program (ZMod p)}

section
variable {env : TEnv p} {l r : TExpr (ZMod p)} {a b : BitVec 32}

theorem hasType_wordV (a : BitVec 32) : HasType (p := p) u32 (wordV a) := ⟨rfl, a.isLt⟩

theorem hasType_wordsV {xs : List (BitVec 32)} {n : ℕ} (h : xs.length = n) : HasType (p := p) (u32s n) (wordsV xs) := by
  simp only [wordsV, HasType, List.length_map, h, true_and, List.mem_map]
  rintro v ⟨b, hb, rfl⟩
  exact hasType_wordV b

theorem ev_w {x : TId} (h : env x = some (wordV a)) : evalT env (uv x) = .ok (wordV a) := ev_ident h (hasType_wordV a)

theorem ev_ws {x : TId} {xs : List (BitVec 32)} {n : ℕ} (h : env x = some (wordsV xs)) (hn : xs.length = n) : evalT env (uvs x n) = .ok (wordsV xs) := ev_ident h (hasType_wordsV hn)

theorem ev_wsel {x : TId} {xs : List (BitVec 32)} {n k : ℕ} {i : TExpr (ZMod p)} (h : env x = some (wordsV xs)) (hn : xs.length = n) (hi : evalT env i = .ok (.uint .b32 k)) (hk : k < xs.length) :
    evalT env (usel x n i) = .ok (wordV xs[k]) := ev_select (ev_ws h hn) hi (by simp [hk])

theorem ev_wadd (hl : evalT env l = .ok (wordV a)) (hr : evalT env r = .ok (wordV b)) : evalT env (uadd l r) = .ok (wordV (a + b)) :=
  ev_ubin hl hr (by simp [UOp.eval, UW.bits])
theorem ev_wxor (hl : evalT env l = .ok (wordV a)) (hr : evalT env r = .ok (wordV b)) : evalT env (uxor l r) = .ok (wordV (a ^^^ b)) :=
  ev_ubin hl hr (by simp [UOp.eval])
theorem ev_wand (hl : evalT env l = .ok (wordV a)) (hr : evalT env r = .ok (wordV b)) : evalT env (uand l r) = .ok (wordV (a &&& b)) :=
  ev_ubin hl hr (by simp [UOp.eval])
theorem ev_wor (hl : evalT env l = .ok (wordV a)) (hr : evalT env r = .ok (wordV b)) : evalT env (uor l r) = .ok (wordV (a ||| b)) :=
  ev_ubin hl hr (by simp [UOp.eval])
theorem ev_wshl {k : ℕ} (hl : evalT env l = .ok (wordV a)) (hr : evalT env r = .ok (.uint .b32 k)) : evalT env (ushl l r) = .ok (wordV (a <<< k)) :=
  ev_ubin hl hr (by simp [UOp.eval, UW.bits, Nat.shiftLeft_eq])
theorem ev_wshr {k : ℕ} (hl : evalT env l = .ok (wordV a)) (hr : evalT env r = .ok (.uint .b32 k)) : evalT env (ushr l r) = .ok (wordV (a >>> k)) :=
  ev_ubin hl hr (by simp [UOp.eval, Nat.shiftRight_eq_div_pow])
theorem ev_wnot (hl : evalT env l = .ok (wordV a)) : evalT env (.unot .b32 l) = .ok (wordV (~~~a)) := by
  simp [evalT, hl, Except.bind, bind, asUint, wordV, UW.bits]
end

theorem rotr32_spec {N : ℕ} (h0 : N < 32) (a : BitVec 32) : CallsTo O P (rotr32 N) [wordV a] (.ok (wordV (a.rotateRight N))) := by
  rw [callsTo_iff]
  refine fwp (wp_nil ?_)
  refine (ev_wor (ev_wshr (ev_w lk(rfl)) (ev_uv lk(rfl) (by omega))) (ev_wshl (ev_w lk(rfl)) (ev_usub (w := .b32) ev_ul (ev_uv lk(rfl) (by omega)) (by omega) (by show _ < 2 ^ 32; omega)))).trans ?_
  rw [BitVec.rotateRight, Nat.mod_eq_of_lt h0, BitVec.rotateRightAux]

theorem wp_rotr (hP : Imports P sha) {σ : TState p} {x : TId} {n : ℕ} {e : TExpr (ZMod p)} {a : BitVec 32} {ss : List (SStmt (ZMod p))} {R : Except Fault (TState p) → Prop} (hn : n < 32)
    (he : evalT σ.env e = .ok (wordV a)) (ht : e.ty = u32) (h : WP O P (σ.set x (wordV (a.rotateRight n))) ss R) : WP O P σ (rotrCall x n e :: ss) R := by
  refine wp_call (cwp_here [n] (evL_cons ev_ul evL_nil) (evL_cons he evL_nil) (hP _ _ _ _ _ (by simp [ht, sha])) (FWP.mono (callsTo_iff.1 (rotr32_spec hn a)) ?_))
  rintro r rfl
  exact ⟨wordV (a.rotateRight n), rfl, h⟩

theorem extend_spec (hP : Imports P sha) {ws : List (BitVec 32)} (hl : ws.length = 64) {i : ℕ} (h1 : 16 ≤ i) (h2 : i < 64) :
    CallsTo O P shaExtend [wordsV ws, .uint .b32 i] (.ok (wordV (sigma1 ws[i - 2] + ws[i - 7] + sigma0 ws[i - 15] + ws[i - 16]))) := by
  rw [callsTo_iff]
  have hsel : ∀ (σ : TState p) (k : ℕ) (hk : k ≤ i) (h1 : 1 ≤ k), σ.env 0 = some (wordsV ws) → σ.env 1 = some (.uint .b32 i) → evalT σ.env (usel 0 64 (usub (uv 1) (ul k))) = .ok (wordV (ws[i - k]'(by omega))) := by
    intro σ k hk h1 e0 e1
    exact ev_wsel e0 hl (ev_usub (w := .b32) (ev_uv e1 (by omega)) ev_ul hk (by show _ < 2 ^ 32; omega)) (by omega)
  refine fwp ?_
  refine wp_rotr hP (by omega) (hsel _ 15 (by omega) (by omega) lk(rfl) lk(rfl)) rfl ?_
  refine wp_rotr hP (by omega) (hsel _ 15 (by omega) (by omega) lk(rfl) lk(rfl)) rfl ?_
  refine wp_var (ev_wxor (ev_wxor (ev_w lk(rfl)) (ev_w lk(rfl))) (ev_wshr (hsel _ 15 (by omega) (by omega) lk(rfl) lk(rfl)) ev_ul)) ?_
  refine wp_rotr hP (by omega) (hsel _ 2 (by omega) (by omega) lk(rfl) lk(rfl)) rfl ?_
  refine wp_rotr hP (by omega) (hsel _ 2 (by omega) (by omega) lk(rfl) lk(rfl)) rfl ?_
  refine wp_var (ev_wxor (ev_wxor (ev_w lk(rfl)) (ev_w lk(rfl))) (ev_wshr (hsel _ 2 (by omega) (by omega) lk(rfl) lk(rfl)) ev_ul)) (wp_nil ?_)
  refine (ev_wadd (ev_wadd (ev_wadd (hsel _ 16 (by omega) (by omega) lk(rfl) lk(rfl)) (ev_w lk(rfl))) (hsel _ 7 (by omega) (by omega) lk(rfl) lk(rfl))) (ev_w lk(rfl))).trans ?_
  congr 2
  simp only [sigma0, sigma1]
  ac_rfl

theorem temp1_spec (hP : Imports P sha) (e f g h k w : BitVec 32) : CallsTo O P shaTemp1 [wordV e, wordV f, wordV g, wordV h, wordV k, wordV w] (.ok (wordV (h + Sigma1 e + Ch e f g + k + w))) := by
  rw [callsTo_iff]
  refine fwp (wp_var (ev_wxor (ev_wand (ev_w lk(rfl)) (ev_w lk(rfl))) (ev_wand (ev_wnot (ev_w lk(rfl))) (ev_w lk(rfl)))) ?_)
  refine wp_rotr hP (by omega) (ev_w lk(rfl)) rfl (wp_rotr hP (by omega) (ev_w lk(rfl)) rfl (wp_rotr hP (by omega) (ev_w lk(rfl)) rfl ?_))
  refine wp_var (ev_wxor (ev_wxor (ev_w lk(rfl)) (ev_w lk(rfl))) (ev_w lk(rfl))) (wp_nil ?_)
  exact ev_wadd (ev_wadd (ev_wadd (ev_wadd (ev_w lk(rfl)) (ev_w lk(rfl))) (ev_w lk(rfl))) (ev_w lk(rfl))) (ev_w lk(rfl))

theorem temp2_spec (hP : Imports P sha) (a b c : BitVec 32) : CallsTo O P shaTemp2 [wordV a, wordV b, wordV c] (.ok (wordV (Sigma0 a + Maj a b c))) := by
  rw [callsTo_iff]
  refine fwp (wp_var (ev_wxor (ev_wxor (ev_wand (ev_w lk(rfl)) (ev_w lk(rfl))) (ev_wand (ev_w lk(rfl)) (ev_w lk(rfl)))) (ev_wand (ev_w lk(rfl)) (ev_w lk(rfl)))) ?_)
  refine wp_rotr hP (by omega) (ev_w lk(rfl)) rfl (wp_rotr hP (by omega) (ev_w lk(rfl)) rfl (wp_rotr hP (by omega) (ev_w lk(rfl)) rfl ?_))
  refine wp_var (ev_wxor (ev_wxor (ev_w lk(rfl)) (ev_w lk(rfl))) (ev_w lk(rfl))) (wp_nil ?_)
  exact ev_wadd (ev_w lk(rfl)) (ev_w lk(rfl))


/-! ### `shaRound` -/

theorem evS_lits {env : TEnv p} : ∀ ns : List ℕ, evalS env (ns.map fun n => .expr (ul (p := p) n)) = .ok (ns.map (AVal.uint .b32))
  | [] => evS_nil
  | n :: ns => evS_expr ev_ul (evS_lits ns)

theorem ev_ulits {env : TEnv p} {ns : List ℕ} : evalT env (ulits ns) = .ok (uintsV (p := p) .b32 ns) := ev_array (evS_lits ns)

theorem shaK_eq : ∀ i < 64, shaK[i]? = some (K i).toNat := by decide +kernel

theorem shaIV_eq : shaIV = H0.map BitVec.toNat := by decide +kernel

theorem uintsV_words (xs : List (BitVec 32)) : uintsV (p := p) .b32 (xs.map BitVec.toNat) = wordsV xs := by simp [uintsV, wordsV, wordV]

/-- The message schedule. -/
def sched (M : List Word) : List Word := (List.range 64).map (W M)

theorem sched_getElem (M : List Word) (k : ℕ) (h : k < (sched M).length) : (sched M)[k] = W M k := by simp [sched]

theorem sched_take {M : List Word} (h : M.length = 16) : (sched M).take 16 = M := by
  refine List.ext_getElem (by simp [sched, h]) fun i h1 h2 => ?_
  rw [List.getElem_take, sched_getElem, W, if_pos (by omega), List.getD_eq_getElem _ _ h2]

theorem part_getElem {α : Type*} {l : List α} {z : α} {i k m : ℕ} (h : k < i) (hi : i ≤ l.length) (hk : k < (l.take i ++ List.replicate m z).length) :
    (l.take i ++ List.replicate m z)[k] = l[k] := by
  rw [List.getElem_append_left (by simp; omega), List.getElem_take]

theorem shaRound_spec (hP : Imports P sha) {M H : List (BitVec 32)} (hM : M.length = 16) (hH : H.length = 8) : CallsTo O P shaRound [wordsV M, wordsV H] (.ok (wordsV (compress H M))) := by
  rw [callsTo_iff]
  obtain ⟨h0, h1, h2, h3, h4, h5, h6, h7, rfl⟩ : ∃ h0 h1 h2 h3 h4 h5 h6 h7, H = [h0, h1, h2, h3, h4, h5, h6, h7] := by
    match H, hH with
    | [h0, h1, h2, h3, h4, h5, h6, h7], _ => exact ⟨_, _, _, _, _, _, _, _, rfl⟩
  have hs : (sched M).length = 64 := by simp [sched]
  refine fwp ?_
  refine wp_var (ev_wsel (xs := [h0, h1, h2, h3, h4, h5, h6, h7]) lk(rfl) rfl (ev_ul (n := 0)) (by simp)) ?_
  refine wp_var (ev_wsel (xs := [h0, h1, h2, h3, h4, h5, h6, h7]) lk(rfl) rfl (ev_ul (n := 1)) (by simp)) ?_
  refine wp_var (ev_wsel (xs := [h0, h1, h2, h3, h4, h5, h6, h7]) lk(rfl) rfl (ev_ul (n := 2)) (by simp)) ?_
  refine wp_var (ev_wsel (xs := [h0, h1, h2, h3, h4, h5, h6, h7]) lk(rfl) rfl (ev_ul (n := 3)) (by simp)) ?_
  refine wp_var (ev_wsel (xs := [h0, h1, h2, h3, h4, h5, h6, h7]) lk(rfl) rfl (ev_ul (n := 4)) (by simp)) ?_
  refine wp_var (ev_wsel (xs := [h0, h1, h2, h3, h4, h5, h6, h7]) lk(rfl) rfl (ev_ul (n := 5)) (by simp)) ?_
  refine wp_var (ev_wsel (xs := [h0, h1, h2, h3, h4, h5, h6, h7]) lk(rfl) rfl (ev_ul (n := 6)) (by simp)) ?_
  refine wp_var (ev_wsel (xs := [h0, h1, h2, h3, h4, h5, h6, h7]) lk(rfl) rfl (ev_ul (n := 7)) (by simp)) ?_
  refine wp_var (v := wordsV (M ++ List.replicate 48 0)) ?_ ?_
  · refine (ev_array (evS_spread (ev_ws (n := 16) lk(rfl) hM) (evS_spread (ev_repeat ev_ul ev_ul) evS_nil))).trans ?_
    simp [wordsV, wordV]
  refine wp_for (l := 16) (h := 64) (fun i σ => σ.env 10 = some (wordV h0) ∧ σ.env 11 = some (wordV h1) ∧ σ.env 12 = some (wordV h2) ∧ σ.env 13 = some (wordV h3) ∧
      σ.env 14 = some (wordV h4) ∧ σ.env 15 = some (wordV h5) ∧ σ.env 16 = some (wordV h6) ∧ σ.env 17 = some (wordV h7) ∧
      σ.env 2 = some (wordsV ((sched M).take i ++ List.replicate (64 - i) 0))) ev_ul ev_ul (by omega) ?_ ?_ ?_
  · rw [sched_take hM]
    exact ⟨rfl, rfl, rfl, rfl, rfl, rfl, rfl, rfl, rfl⟩
  · rintro i σ hi1 hi2 ⟨e0, e1, e2, e3, e4, e5, e6, e7, ew⟩
    have hl : ((sched M).take i ++ List.replicate (64 - i) 0).length = 64 := by simp [hs]; omega
    refine wp_call (cwp_here [] evL_nil (evL_cons (ev_ws lk(ew) hl) (evL_cons (ev_uv lk(rfl) (by omega)) evL_nil)) (hP _ _ _ _ _ rfl) (FWP.mono (callsTo_iff.1 (extend_spec hP hl hi1 hi2)) ?_))
    rintro r rfl
    refine ⟨wordsV ((sched M).take (i + 1) ++ List.replicate (64 - (i + 1)) 0), ?_, wp_nil ⟨e0, e1, e2, e3, e4, e5, e6, e7, rfl⟩⟩
    rw [setA_select (vs := ((sched M).take i ++ List.replicate (64 - i) 0).map wordV) lk(ew) (hasType_wordsV hl) (ev_uv (n := i) lk(rfl) (by omega)) (by rw [List.length_map, hl]; exact hi2), ← List.map_set]
    have := set_take (sched M) 0 i (by omega)
    rw [sched_getElem, hs, W, if_neg (by omega)] at this
    rw [← this]
    simp only [part_getElem (show i - 2 < i by omega) (show i ≤ (sched M).length by omega), part_getElem (show i - 7 < i by omega) (show i ≤ (sched M).length by omega),
      part_getElem (show i - 15 < i by omega) (show i ≤ (sched M).length by omega), part_getElem (show i - 16 < i by omega) (show i ≤ (sched M).length by omega), sched_getElem]
    rfl
  rintro σ ⟨e0, e1, e2, e3, e4, e5, e6, e7, ew⟩
  rw [Nat.sub_self, List.replicate_zero, List.append_nil, List.take_of_length_le (by omega)] at ew
  refine wp_var (ev_w lk(e0)) (wp_var (ev_w lk(e1)) (wp_var (ev_w lk(e2)) (wp_var (ev_w lk(e3)) (wp_var (ev_w lk(e4)) (wp_var (ev_w lk(e5)) (wp_var (ev_w lk(e6)) (wp_var (ev_w lk(e7)) ?_)))))))
  refine wp_for (l := 0) (h := 64) (fun i σ => σ.env 10 = some (wordV h0) ∧ σ.env 11 = some (wordV h1) ∧ σ.env 12 = some (wordV h2) ∧ σ.env 13 = some (wordV h3) ∧
      σ.env 14 = some (wordV h4) ∧ σ.env 15 = some (wordV h5) ∧ σ.env 16 = some (wordV h6) ∧ σ.env 17 = some (wordV h7) ∧ σ.env 2 = some (wordsV (sched M)) ∧
      σ.env 20 = some (wordV (steps M ⟨h0, h1, h2, h3, h4, h5, h6, h7⟩ i).a) ∧ σ.env 21 = some (wordV (steps M ⟨h0, h1, h2, h3, h4, h5, h6, h7⟩ i).b) ∧
      σ.env 22 = some (wordV (steps M ⟨h0, h1, h2, h3, h4, h5, h6, h7⟩ i).c) ∧ σ.env 23 = some (wordV (steps M ⟨h0, h1, h2, h3, h4, h5, h6, h7⟩ i).d) ∧
      σ.env 24 = some (wordV (steps M ⟨h0, h1, h2, h3, h4, h5, h6, h7⟩ i).e) ∧ σ.env 25 = some (wordV (steps M ⟨h0, h1, h2, h3, h4, h5, h6, h7⟩ i).f) ∧
      σ.env 26 = some (wordV (steps M ⟨h0, h1, h2, h3, h4, h5, h6, h7⟩ i).g) ∧ σ.env 27 = some (wordV (steps M ⟨h0, h1, h2, h3, h4, h5, h6, h7⟩ i).h)) ev_ul ev_ul (by omega) ?_ ?_ ?_
  · exact ⟨e0, e1, e2, e3, e4, e5, e6, e7, ew, rfl, rfl, rfl, rfl, rfl, rfl, rfl, rfl⟩
  · clear e0 e1 e2 e3 e4 e5 e6 e7 ew σ
    rintro i σ - hi ⟨e0, e1, e2, e3, e4, e5, e6, e7, ew, f0, f1, f2, f3, f4, f5, f6, f7⟩
    simp only [steps]
    generalize steps M ⟨h0, h1, h2, h3, h4, h5, h6, h7⟩ i = s at f0 f1 f2 f3 f4 f5 f6 f7 ⊢
    refine wp_callTo (vs := [wordV s.e, wordV s.f, wordV s.g, wordV s.h, wordV (K i), wordV (W M i)]) ?_ (hP _ _ _ _ _ rfl) (temp1_spec hP _ _ _ _ _ _) ?_
    · refine evL_cons (ev_w lk(f4)) (evL_cons (ev_w lk(f5)) (evL_cons (ev_w lk(f6)) (evL_cons (ev_w lk(f7)) (evL_cons ?_ (evL_cons ?_ evL_nil)))))
      · refine ev_select (k := i) ev_ulits (ev_uv lk(rfl) (by omega)) ?_
        rw [List.getElem?_map, shaK_eq i hi]; rfl
      · rw [← sched_getElem M i (by omega)]
        exact ev_wsel lk(ew) hs (ev_uv lk(rfl) (by omega)) (by omega)
    refine wp_callTo (evL_cons (ev_w lk(f0)) (evL_cons (ev_w lk(f1)) (evL_cons (ev_w lk(f2)) evL_nil))) (hP _ _ _ _ _ rfl) (temp2_spec hP _ _ _) ?_
    refine wp_var (ev_w lk(f6)) (wp_var (ev_w lk(f5)) (wp_var (ev_w lk(f4)) (wp_var (ev_wadd (ev_w lk(f3)) (ev_w lk(rfl))) ?_)))
    refine wp_var (ev_w lk(f2)) (wp_var (ev_w lk(f1)) (wp_var (ev_w lk(f0)) (wp_var (ev_wadd (ev_w lk(rfl)) (ev_w lk(rfl))) (wp_nil ?_))))
    exact ⟨e0, e1, e2, e3, e4, e5, e6, e7, ew, rfl, rfl, rfl, rfl, rfl, rfl, rfl, rfl⟩
  · clear e0 e1 e2 e3 e4 e5 e6 e7 ew σ
    rintro σ ⟨e0, e1, e2, e3, e4, e5, e6, e7, -, f0, f1, f2, f3, f4, f5, f6, f7⟩
    rw [compress]
    change WP O P σ _ fun r => _
    have hst : State.ofList [h0, h1, h2, h3, h4, h5, h6, h7] = ⟨h0, h1, h2, h3, h4, h5, h6, h7⟩ := rfl
    rw [hst]
    generalize steps M ⟨h0, h1, h2, h3, h4, h5, h6, h7⟩ 64 = s at f0 f1 f2 f3 f4 f5 f6 f7 ⊢
    refine wp_var (ev_wadd (ev_w lk(e0)) (ev_w lk(f0))) (wp_var (ev_wadd (ev_w lk(e1)) (ev_w lk(f1))) (wp_var (ev_wadd (ev_w lk(e2)) (ev_w lk(f2))) (wp_var (ev_wadd (ev_w lk(e3)) (ev_w lk(f3))) ?_)))
    refine wp_var (ev_wadd (ev_w lk(e4)) (ev_w lk(f4))) (wp_var (ev_wadd (ev_w lk(e5)) (ev_w lk(f5))) (wp_var (ev_wadd (ev_w lk(e6)) (ev_w lk(f6))) (wp_var (ev_wadd (ev_w lk(e7)) (ev_w lk(f7))) (wp_nil ?_))))
    refine (ev_array (evS_expr (ev_w lk(rfl)) (evS_expr (ev_w lk(rfl)) (evS_expr (ev_w lk(rfl)) (evS_expr (ev_w lk(rfl)) (evS_expr (ev_w lk(rfl)) (evS_expr (ev_w lk(rfl)) (evS_expr (ev_w lk(rfl))
      (evS_expr (ev_w lk(rfl)) evS_nil))))))))).trans ?_
    simp only [State.toList, List.zipWith, wordsV, List.map, BitVec.add_comm]

theorem compress_length {H M : List Word} (h : H.length = 8) : (compress H M).length = 8 := by simp [compress, State.toList, h]

theorem blocks_length (Ms : List (List Word)) : (blocks Ms).length = 8 := by
  have : ∀ (Ms : List (List Word)) (H : List Word), H.length = 8 → (Ms.foldl compress H).length = 8 := by
    intro Ms
    induction Ms with
    | nil => exact fun H h => h
    | cons M Ms ih => exact fun H h => ih _ (compress_length h)
  exact this Ms H0 (by decide +kernel)

theorem sha256_spec (hP : Imports P sha) {Ms : List (List (BitVec 32))} {N : ℕ} (hN : Ms.length = N) (hN2 : N < 2 ^ 32) (hM : ∀ M ∈ Ms, M.length = 16) :
    CallsTo O P (sha256 N) [.array (Ms.map wordsV)] (.ok (wordsV (blocks Ms))) := by
  rw [callsTo_iff]
  refine fwp (wp_var (v := wordsV H0) ?_ ?_)
  · rw [ev_ulits, shaIV_eq, uintsV_words]
  refine wp_for (l := 0) (h := N) (fun i σ => σ.env 0 = some (.array (Ms.map wordsV)) ∧ σ.env 1 = some (wordsV (blocks (Ms.take i)))) ev_ul (ev_uv lk(rfl) hN2) (by omega) ⟨rfl, rfl⟩ ?_ ?_
  · rintro i σ - hi ⟨e0, e1⟩
    have hi' : i < Ms.length := by omega
    have ht : HasType (p := p) (.array N (u32s 16)) (.array (Ms.map wordsV)) := by
      simp only [HasType, List.length_map, hN, true_and, List.mem_map]
      rintro v ⟨M, hM', rfl⟩
      exact hasType_wordsV (hM M hM')
    refine wp_callTo (vs := [wordsV Ms[i], wordsV (blocks (Ms.take i))]) (evL_cons (ev_select (ev_ident lk(e0) ht) (ev_uv lk(rfl) (by omega)) (by simp [hi'])) (evL_cons (ev_ws lk(e1) (blocks_length _)) evL_nil))
      (hP _ _ _ _ _ rfl) (shaRound_spec hP (hM _ (List.getElem_mem hi')) (blocks_length _)) (wp_nil ⟨e0, ?_⟩)
    rw [← List.take_concat_get' _ _ hi', blocks, blocks, List.foldl_append]
    rfl
  · rintro σ ⟨-, e1⟩
    rw [List.take_of_length_le (by omega)] at e1
    exact wp_nil (ev_ws e1 (blocks_length _))

end Zok.Typed.Std
