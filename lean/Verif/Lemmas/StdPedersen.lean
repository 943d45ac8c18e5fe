import Verif.Lemmas.PedersenCompute
import Verif.Lemmas.StdPoseidon
import Verif.Props.StdEcc
import Verif.Lemmas.StdEddsa

/-
`hashes/pedersen`.
-/

namespace Zok.Typed.Std
open Abi Pedersen
variable {Z : Type} {O : Oracle Bn128 Z} {P : Program (ZMod Bn128)}

theorem ev_fexprs {env : TEnv Bn128} : ∀ xs : List (ZMod Bn128), evalS env (xs.map fun x => .expr (.fval x)) = .ok (xs.map .field)
  | [] => evS_nil
  | _ :: xs => evS_expr ev_fval (ev_fexprs xs)

theorem ev_ctxE {env : TEnv Bn128} {c : Params Bn128} : evalT env (ctxE c) = .ok c.val := by
  have h := ev_fexprs (env := env) c.infinity
  simp [ctxE, evalT, evalL, h, Params.val, bind, Except.bind]

theorem round_digit (k : ℕ) (hk : k < 171) (b0 b1 b2 : Bool) : fieldsV [(if b2 then -1 else 1) * (((tabX k).map (fun n : ℕ => (n : ZMod Bn128)))[2 * b1.toNat + b0.toNat]'(by rw [List.length_map, (tab_len hk).1]; cases b0 <;> cases b1 <;> decide)),
    ((tabY k).map (fun n : ℕ => (n : ZMod Bn128)))[2 * b1.toNat + b0.toNat]'(by rw [List.length_map, (tab_len hk).2]; cases b0 <;> cases b1 <;> decide)] = ptV (digit b0 b1 b2 • gen k) := by
  have hj : 2 * b1.toNat + b0.toNat < 4 := by cases b0 <;> cases b1 <;> decide
  obtain ⟨hx, hy⟩ := tab_at hk hj
  have h0 : digit b0 b1 b2 • gen k = if b2 then -((2 * b1.toNat + b0.toNat + 1) • gen k) else (2 * b1.toNat + b0.toNat + 1) • gen k := by
    have : (1 + b0.toNat + 2 * b1.toNat : ℤ) = ((2 * b1.toNat + b0.toNat + 1 : ℕ) : ℤ) := by push_cast; ring
    rw [digit, this]
    cases b2
    · simp only [Bool.false_eq_true, if_false, one_mul, natCast_zsmul]
    · simp only [if_true, neg_mul, one_mul, neg_smul, natCast_zsmul]
  rw [h0, ptV]
  simp only [List.getElem_map]
  rw [List.getD_eq_getElem _ _ (by rw [(tab_len hk).1]; exact hj)] at hx
  rw [List.getD_eq_getElem _ _ (by rw [(tab_len hk).2]; exact hj)] at hy
  cases b2
  · simp only [Bool.false_eq_true, if_false, one_mul, hx, hy]
  · simp only [if_true, Edwards.neg_u, Edwards.neg_v, neg_mul, one_mul, hx, hy]

theorem ev_flitsV {env : TEnv Bn128} (ns : List ℕ) : evalT env (flits ns) = .ok (fieldsV (ns.map fun n : ℕ => (n : ZMod Bn128))) := by
  rw [flits, ev_array (evS_flits ns), fieldsV, List.map_map]; rfl

/-- The partial sum. -/
def psum (e : List Bool) (k : ℕ) : babyJubJubCurve.Pt := ∑ i ∈ Finset.range k, Pedersen.chunk e i • gen i

theorem round_spec (hU : Imports P utils) (hE : Imports P ecc) {e : List Bool} (he : e.length = 513) {ret : TExpr (ZMod Bn128)} {r : AVal (ZMod Bn128)} {σ : TState Bn128} {ss : List (SStmt (ZMod Bn128))} {Q : babyJubJubCurve.Pt}
    (e1 : σ.env 1 = some (boolsV e)) (e2 : σ.env 2 = some (ptV Q)) {k : ℕ} (hk : k < 171) : ∃ v w, OkTo O P σ (pedRound k ++ ss) ret r ↔ OkTo O P (((σ.set 3 (.field v)).set 4 (.field w)).set 2 (ptV (Q + Pedersen.chunk e k • gen k))) ss ret r := by
  have h0 : 3 * k < e.length := by omega
  have h1 : 3 * k + 1 < e.length := by omega
  have h2 : 3 * k + 2 < e.length := by omega
  have hx := tab_len hk
  have hj : 2 * e[3 * k + 1].toNat + e[3 * k].toNat < 4 := by cases e[3 * k] <;> cases e[3 * k + 1] <;> decide
  have ht : (TExpr.ty (flits (p := Bn128) (tabX k))) = .array 4 .field ∧ (TExpr.ty (flits (p := Bn128) (tabY k))) = .array 4 .field := by
    simp only [flits, TExpr.ty, hx.1, hx.2, and_self]
  obtain ⟨x, y, hcx, hcy, hd⟩ : ∃ x y, CallsTo O P lookup3bitSigned [boolsV [e[3 * k], e[3 * k + 1], e[3 * k + 2]], fieldsV ((tabX k).map fun n : ℕ => (n : ZMod Bn128))] (.ok (.field x)) ∧
      CallsTo O P lookup2bit [boolsV [e[3 * k], e[3 * k + 1]], fieldsV ((tabY k).map fun n : ℕ => (n : ZMod Bn128))] (.ok (.field y)) ∧ fieldsV [x, y] = ptV (digit e[3 * k] e[3 * k + 1] e[3 * k + 2] • gen k) :=
    ⟨_, _, C59_lookup3 hU _ _ _ _ (by rw [List.length_map]; exact hx.1), C59_lookup2 _ _ _ (by rw [List.length_map]; exact hx.2), round_digit k hk e[3 * k] e[3 * k + 1] e[3 * k + 2]⟩
  have hc : Pedersen.chunk e k = digit e[3 * k] e[3 * k + 1] e[3 * k + 2] := by
    simp only [Pedersen.chunk, List.getD_eq_getElem _ _ h0, List.getD_eq_getElem _ _ h1, List.getD_eq_getElem _ _ h2]
  refine ⟨x, y, ?_⟩
  refine (okTo_callTo (i := lookup3bitSigned) (vs := [boolsV [e[3 * k], e[3 * k + 1], e[3 * k + 2]], fieldsV ((tabX k).map fun n : ℕ => (n : ZMod Bn128))])
    (evL_cons (ev_array (evS_expr (ev_bsel lk(e1) he h0) (evS_expr (ev_bsel lk(e1) he h1) (evS_expr (ev_bsel lk(e1) he h2) evS_nil)))) (evL_cons (ev_flitsV _) evL_nil)) ?_
    hcx).trans ?_
  · refine hU _ _ _ _ _ ?_
    rw [List.map_cons, List.map_cons, List.map_nil, ht.1]
    rfl
  refine (okTo_callTo (i := lookup2bit) (vs := [boolsV [e[3 * k], e[3 * k + 1]], fieldsV ((tabY k).map fun n : ℕ => (n : ZMod Bn128))])
    (evL_cons (ev_array (evS_expr (ev_bsel lk(e1) he h0) (evS_expr (ev_bsel lk(e1) he h1) evS_nil))) (evL_cons (ev_flitsV _) evL_nil)) ?_
    hcy).trans ?_
  · refine hU _ _ _ _ _ ?_
    rw [List.map_cons, List.map_cons, List.map_nil, ht.2]
    rfl
  refine okTo_callTo (i := edwardsAdd) (vs := [ptV Q, ptV (digit e[3 * k] e[3 * k + 1] e[3 * k + 2] • gen k), babyJubJub.val]) ?_ (hE _ _ _ _ _ rfl) (by rw [hc]; exact add_spec C60_babyJubJub.1 _ _)
  refine evL_cons (ev_pt lk(e2)) (evL_cons ?_ (evL_cons ev_ctxE evL_nil))
  rw [← hd]
  exact ev_array (evS_expr (ev_fv lk(rfl)) (evS_expr (ev_fv lk(rfl)) evS_nil))

theorem rounds_spec (hU : Imports P utils) (hE : Imports P ecc) {e : List Bool} (he : e.length = 513) {ret : TExpr (ZMod Bn128)} {r : AVal (ZMod Bn128)} {σ : TState Bn128}
    (e1 : σ.env 1 = some (boolsV e)) (e2 : σ.env 2 = some (ptV (0 : babyJubJubCurve.Pt))) : ∀ n ≤ 171, ∀ ss, ∃ σ' : TState Bn128, σ'.env 1 = some (boolsV e) ∧ σ'.env 2 = some (ptV (psum e n)) ∧
      (OkTo O P σ ((List.range n).flatMap pedRound ++ ss) ret r ↔ OkTo O P σ' ss ret r) := by
  intro n
  induction n with
  | zero => exact fun _ ss => ⟨σ, e1, by simpa [psum] using e2, Iff.rfl⟩
  | succ k ih =>
    intro hk ss
    obtain ⟨σ', e1, e2, h⟩ := ih (by omega) (pedRound k ++ ss)
    obtain ⟨v, w, h'⟩ := round_spec (O := O) (ret := ret) (r := r) (ss := ss) hU hE he e1 e2 (show k < 171 by omega)
    have hps : psum e (k + 1) = psum e k + Pedersen.chunk e k • gen k := Finset.sum_range_succ _ _
    refine ⟨((σ'.set 3 (.field v)).set 4 (.field w)).set 2 (ptV (psum e k + Pedersen.chunk e k • gen k)), lk(e1), by rw [hps]; rfl, ?_⟩
    rw [List.range_succ, List.flatMap_append, List.append_assoc, List.flatMap_singleton, h]
    exact h'

theorem chunk_pad (m : List Bool) (hm : m.length = 512) (k : ℕ) : Pedersen.chunk (m ++ [false]) k = Pedersen.chunk m k := by
  have : ∀ i, (m ++ [false]).getD i false = m.getD i false := by
    intro i
    simp only [List.getD_eq_getElem?_getD]
    rcases lt_trichotomy i m.length with h | h | h
    · rw [List.getElem?_append_left h]
    · subst h; simp
    · rw [List.getElem?_eq_none (by simp; omega), List.getElem?_eq_none (by omega)]
  simp only [Pedersen.chunk, this]

theorem psum_hash (m : List Bool) (hm : m.length = 512) : psum (m ++ [false]) 171 = Pedersen.hash base m := by
  have hg : ∀ s i, i < 62 → gen (62 * s + i) = 16 ^ i • base s := by
    intro s i hi
    rw [gen, show (62 * s + i) % 62 = i by omega, show (62 * s + i) / 62 = s by omega]
  have hs : ∀ s n, n ≤ 62 → ∑ i ∈ Finset.range n, Pedersen.chunk (m ++ [false]) (62 * s + i) • gen (62 * s + i) = scalar m s n • base s := by
    intro s n hn
    rw [scalar, Finset.sum_smul]
    refine Finset.sum_congr rfl fun i hi => ?_
    have := Finset.mem_range.1 hi
    rw [hg s i (by omega), chunk_pad m hm, mul_smul, ← natCast_zsmul]
    norm_cast
  rw [psum, show 171 = 62 + 62 + 47 by rfl, Finset.sum_range_add, Finset.sum_range_add, Pedersen.hash, ← hs 0 62 le_rfl, ← hs 1 62 le_rfl, ← hs 2 47 (by omega)]
  simp only [mul_zero, zero_add, mul_one]

theorem compress_bools (hU : Imports P utils) (hO : Unpacks O) {u v : ZMod Bn128} {r : AVal (ZMod Bn128)} (h : Calls O P edwardsCompress [fieldsV [u, v]] (.ok r)) : ∃ bl : List Bool, bl.length = 256 ∧ r = boolsV bl := by
  obtain ⟨bx, hx, bl, hy, rfl⟩ := (compress_spec hU hO).1 h
  exact ⟨_, by simp [(hO _ _ _ hy).1], rfl⟩

theorem pedersenBool_spec (hU : Imports P utils) (hO : Unpacks O) (hE : Imports P ecc) {m : List Bool} (hm : m.length = 512) {r : AVal (ZMod Bn128)} :
    Calls O P pedersenBool [boolsV m] (.ok r) ↔ Calls O P edwardsCompress [ptV (Pedersen.hash base m)] (.ok r) := by
  have e0 : (calleeState (p := Bn128) pedersenBool [boolsV m]).env 0 = some (boolsV m) := rfl
  rw [calls_okTo]
  generalize calleeState (p := Bn128) pedersenBool [boolsV m] = σ0 at e0
  have hlen : (m ++ [false]).length = 513 := by simp [hm]
  refine (okTo_set (v := boolsV (m ++ [false])) ?_).trans ((okTo_set (v := ptV (0 : babyJubJubCurve.Pt)) ?_).trans ((okTo_set ev_fval).trans ((okTo_set ev_fval).trans ?_)))
  · refine (ev_array (evS_spread (ev_bv lk(e0) hm) (evS_expr ev_bval evS_nil))).trans ?_
    simp [boolsV]
  · refine (ev_member ev_ctxE rfl).trans ?_
    simp [babyJubJub, ptV, fieldsV, Edwards.zero_u, Edwards.zero_v]
  generalize hσ : (((σ0.set 1 (boolsV (m ++ [false]))).set 2 (ptV (0 : babyJubJubCurve.Pt))).set 3 (.field 0)).set 4 (.field 0) = σ
  have e1 : σ.env 1 = some (boolsV (m ++ [false])) := by rw [← hσ]; rfl
  have e2 : σ.env 2 = some (ptV (0 : babyJubJubCurve.Pt)) := by rw [← hσ]; rfl
  obtain ⟨σ', -, e2', h⟩ := rounds_spec (O := O) (P := P) (ret := pedersenBool.ret) (r := r) hU hE hlen e1 e2 171 le_rfl [call 5 (.array 256 .bool) kCompress [ptv 2]]
  refine h.trans ?_
  rw [psum_hash m hm] at e2'
  rw [call, okTo_call (Q := fun v => Calls O P edwardsCompress [ptV (Pedersen.hash base m)] (.ok v)) (fun v => call_here [] evL_nil (evL_cons (ev_pt e2') evL_nil) (hE _ _ _ _ _ rfl))]
  constructor
  · rintro ⟨v, h1, h2⟩
    obtain ⟨bl, hl, rfl⟩ := compress_bools hU hO h1
    rw [(okTo_nil (ev_bv lk(rfl) hl)).1 h2]
    exact h1
  · intro h1
    obtain ⟨bl, hl, rfl⟩ := compress_bools hU hO h1
    exact ⟨_, h1, (okTo_nil (ev_bv lk(rfl) hl)).2 rfl⟩

/-! ### The version on words -/

/-- The state after the assignment of `v k` to the variables `b + k`. -/
def setN (σ : TState Bn128) (b : ℕ) (v : ℕ → AVal (ZMod Bn128)) : ℕ → TState Bn128
  | 0 => σ
  | n + 1 => (setN σ b v n).set (b + n) (v n)

theorem setN_lt (σ : TState Bn128) (b : ℕ) (v : ℕ → AVal (ZMod Bn128)) {x : ℕ} (hx : x < b) : ∀ n, (setN σ b v n).env x = σ.env x
  | 0 => rfl
  | n + 1 => by
    rw [setN, TState.set]
    simp only
    rw [if_neg (Nat.ne_of_lt (Nat.lt_of_lt_of_le hx (Nat.le_add_right b n))), setN_lt σ b v hx n]

theorem setN_get (σ : TState Bn128) (b : ℕ) (v : ℕ → AVal (ZMod Bn128)) {k : ℕ} : ∀ n, k < n → (setN σ b v n).env (b + k) = some (v k)
  | n + 1, h => by
    rw [setN, TState.set]
    simp only
    by_cases hk : k = n
    · subst hk; rw [if_pos rfl]
    · rw [if_neg (fun h' => hk (Nat.add_left_cancel h')), setN_get σ b v n (Nat.lt_of_le_of_ne (Nat.le_of_lt_succ h) hk)]

/-- Calls with one result, whose arguments are read from variables smaller than `b`. -/
theorem okTo_calls {σ : TState Bn128} {ret : TExpr (ZMod Bn128)} {r : AVal (ZMod Bn128)} {b : ℕ} {t t' : CType} {key : ℕ} {a : ℕ → TExpr (ZMod Bn128)} {u v : ℕ → AVal (ZMod Bn128)} {i : Inst (ZMod Bn128)} :
    ∀ n, (∀ k < n, ∀ τ : TState Bn128, (∀ x < b, τ.env x = σ.env x) → evalT τ.env (a k) = .ok (u k)) → (∀ k < n, (a k).ty = t') → P key [] [t'] t = some (.here i) → (∀ k < n, CallsTo O P i [u k] (.ok (v k))) →
      ∀ ss, OkTo O P σ ((List.range n).map (fun k => call (b + k) t key [a k]) ++ ss) ret r ↔ OkTo O P (setN σ b v n) ss ret r
  | 0, _, _, _, _, ss => Iff.rfl
  | n + 1, ha, ht, hP, hc, ss => by
    rw [List.range_succ, List.map_append, List.append_assoc, okTo_calls n (fun k hk => ha k (by omega)) (fun k hk => ht k (by omega)) hP (fun k hk => hc k (by omega))]
    refine okTo_callTo (evL_cons (ha n (by omega) _ fun x hx => setN_lt σ b v hx n) evL_nil) ?_ (hc n (by omega))
    rw [List.map_singleton, ht n (by omega)]
    exact hP

theorem evS_spreads {env : TEnv Bn128} {x : ℕ → TId} {n : ℕ} {f : ℕ → List Bool} : ∀ l : List ℕ, (∀ k ∈ l, env (x k) = some (boolsV (f k)) ∧ (f k).length = n) → evalS env (l.map fun k => .spread (bv (x k) n)) = .ok ((l.flatMap f).map .bool)
  | [], _ => evS_nil
  | k :: l, h => by
    have := h k (by simp)
    rw [List.flatMap_cons, List.map_append]
    exact evS_spread (ev_bv this.1 this.2) (evS_spreads l fun k hk => h k (by simp [hk]))

theorem wordBits_slice {ws : List (BitVec 32)} {k : ℕ} (hk : k < ws.length) : ((wordBits ws).take (32 * (k + 1))).drop (32 * k) = bitsBE 32 (ws.getD k 0).toNat := by
  induction ws generalizing k with
  | nil => simp at hk
  | cons w ws ih =>
    rw [wordBits, List.flatMap_cons]
    cases k with
    | zero => simp
    | succ k =>
      have := ih (k := k) (by simpa using hk)
      rw [wordBits] at this
      rw [show 32 * (k + 1 + 1) = 32 + 32 * (k + 1) by ring, show 32 * (k + 1) = 32 + 32 * k by ring]
      rw [List.take_append, List.take_of_length_le (by simp), List.drop_append, List.drop_of_length_le (by simp)]
      simp only [length_bitsBE, List.nil_append, Nat.add_sub_cancel_left, List.getD_cons_succ]
      rw [← this]
      ring_nf

theorem pedersen512_spec (hU : Imports P utils) (hH : Imports P pedersenLib) (hO : Unpacks O) (hE : Imports P ecc) {xs : List (BitVec 32)} (hx : xs.length = 16) {r : AVal (ZMod Bn128)} :
    Calls O P pedersen512 [wordsV xs] (.ok r) ↔ ∃ ws : List (BitVec 32), ws.length = 8 ∧ Calls O P pedersenBool [boolsV (wordBits xs)] (.ok (boolsV (wordBits ws))) ∧ r = wordsV ws := by
  have e0 : (calleeState (p := Bn128) pedersen512 [wordsV xs]).env 0 = some (wordsV xs) := rfl
  rw [calls_okTo]
  generalize calleeState (p := Bn128) pedersen512 [wordsV xs] = σ0 at e0
  rw [show (pedersen512 (p := Bn128)).body = (List.range 16).map (fun k => call (10 + k) (.array 32 .bool) kCast [usel 0 16 (ul k)]) ++ ([
    set 1 (.array 512 .bool) (.array .bool 512 ((List.range 16).map fun k => .spread (bv (10 + k) 32))),
    call 2 (.array 256 .bool) kPedersenBool [bv 1 512]] ++
    ((List.range 8).map (fun k => call (30 + k) u32 kCast [.slice .bool 32 (bv 2 256) (ul (32 * k)) (ul (32 * (k + 1)))]) ++ [])) from rfl]
  rw [okTo_calls (u := fun k => wordV (xs.getD k 0)) (v := fun k => boolsV (bitsBE 32 (xs.getD k 0).toNat)) (t' := u32) (i := castToBits .b32) 16 ?_ ?_ (hU _ _ _ _ _ rfl) ?_]
  rotate_left
  · intro k hk τ hτ
    have hk' : k < xs.length := by omega
    rw [List.getD_eq_getElem _ _ hk']
    exact ev_wsel (by rw [hτ 0 (by decide), e0]) hx ev_ul hk'
  · exact fun k hk => rfl
  · intro k hk
    exact C59_toBits hU (w := .b32) (xs.getD k 0).isLt
  generalize hσ : setN σ0 10 (fun k => boolsV (bitsBE 32 (xs.getD k 0).toNat)) 16 = σ1
  have e1 : ∀ k < 16, σ1.env (10 + k) = some (boolsV (bitsBE 32 (xs.getD k 0).toNat)) := fun k hk => by rw [← hσ]; exact setN_get σ0 10 _ 16 hk
  have hfl : (List.range 16).flatMap (fun k => bitsBE 32 (xs.getD k 0).toNat) = wordBits xs := by
    have : xs = (List.range 16).map fun k => xs.getD k 0 := List.ext_getElem (by simp [hx]) fun k h1 h2 => by
      rw [List.getElem_map, List.getElem_range, List.getD_eq_getElem]
    conv_rhs => rw [this, wordBits, List.flatMap_map]
  have hlen : (wordBits xs).length = 512 := by rw [wordBits_length, hx]
  refine (okTo_set (v := boolsV (wordBits xs)) ((ev_array (evS_spreads (f := fun k => bitsBE 32 (xs.getD k 0).toNat) (List.range 16) fun k hk => ⟨e1 k (List.mem_range.1 hk), by simp⟩)).trans (by rw [hfl]; rfl))).trans ?_
  have hcall : ∀ v, ExecCall O P (σ1.set 1 (boolsV (wordBits xs))) (.array 256 .bool) kPedersenBool [] [bv 1 512] (.ok v) ↔ Calls O P pedersenBool [boolsV (wordBits xs)] (.ok v) :=
    fun v => call_here [] evL_nil (evL_cons (ev_bv lk(rfl) hlen) evL_nil) (hH _ _ _ _ _ rfl)
  refine (okTo_call hcall).trans ?_
  have key : ∀ ws : List (BitVec 32), ws.length = 8 → (OkTo O P ((σ1.set 1 (boolsV (wordBits xs))).set 2 (boolsV (wordBits ws))) ((List.range 8).map (fun k => call (30 + k) u32 kCast [.slice .bool 32 (bv 2 256) (ul (32 * k)) (ul (32 * (k + 1)))]) ++ [])
      (pedersen512 (p := Bn128)).ret r ↔ r = wordsV ws) := by
    intro ws hw
    have hwl : (wordBits ws).length = 256 := by rw [wordBits_length, hw]
    rw [okTo_calls (u := fun k => boolsV (bitsBE 32 (ws.getD k 0).toNat)) (v := fun k => wordV (ws.getD k 0)) (t' := .array 32 .bool) (i := castFromBits .b32) 8 ?_ ?_ (hU _ _ _ _ _ rfl) ?_]
    rotate_left
    · intro k hk τ hτ
      refine (ev_slice (ev_bv (by rw [hτ 2 (by decide)]; rfl) hwl) ev_ul ev_ul (by omega) (by rw [List.length_map]; omega)).trans ?_
      rw [← List.map_take, ← List.map_drop, wordBits_slice (by omega)]; rfl
    · exact fun k hk => rfl
    · intro k hk
      have := C59_fromBits (O := O) (P := P) hU (w := .b32) (bl := bitsBE 32 (ws.getD k 0).toNat) (by simp [UW.bits])
      rwa [natBE_bitsBE_of_lt (ws.getD k 0).isLt] at this
    refine okTo_nil ?_
    have hS : ∀ l : List ℕ, (∀ k ∈ l, k < 8) → evalS (setN ((σ1.set 1 (boolsV (wordBits xs))).set 2 (boolsV (wordBits ws))) 30 (fun k => wordV (ws.getD k 0)) 8).env (l.map fun k => .expr (uv (30 + k))) = .ok (l.map fun k => wordV (ws.getD k 0)) := by
      intro l
      induction l with
      | nil => exact fun _ => evS_nil
      | cons k l ih => exact fun h => evS_expr (ev_uv (setN_get _ 30 _ 8 (h k (by simp))) (ws.getD k 0).isLt) (ih fun j hj => h j (by simp [hj]))
    refine (ev_array (hS (List.range 8) fun k hk => List.mem_range.1 hk)).trans ?_
    have : ws = (List.range 8).map fun k => ws.getD k 0 := List.ext_getElem (by simp [hw]) fun k h1 h2 => by
      rw [List.getElem_map, List.getElem_range, List.getD_eq_getElem]
    conv_rhs => rw [this, wordsV, List.map_map]
    rfl
  constructor
  · rintro ⟨v, h1, h2⟩
    have h1' := h1
    rw [pedersenBool_spec hU hO hE hlen] at h1'
    obtain ⟨bl, hl, rfl⟩ := compress_bools hU hO h1'
    obtain ⟨ns, n1, n2, n3⟩ := exists_uints 32 8 bl hl
    obtain ⟨ws, rfl, -⟩ := exists_words n2
    rw [flatMap_toNat] at n3
    subst n3
    have n1 : ws.length = 8 := by simpa using n1
    exact ⟨ws, n1, h1, (key ws n1).1 h2⟩
  · rintro ⟨ws, n1, h1, h2⟩
    exact ⟨_, h1, (key ws n1).2 h2⟩

end Zok.Typed.Std
