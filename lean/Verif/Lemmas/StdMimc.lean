import Verif.Lemmas.StdBlake
import Verif.Model.StdMimc
import Verif.Spec.Mimc

/-
`hashes/mimc7` and `hashes/mimcSponge`.
-/

set_option linter.unusedSectionVars false

namespace Zok.Typed.Std
open Abi Mimc
variable {p : ℕ} {Z : Type} [Fact p.Prime] {O : Oracle p Z} {P : Program (ZMod p)}

/-! ### Arrays of field elements -/

/-- An array of field elements. -/
def fieldsF (n : ℕ) (f : ℕ → ZMod p) : AVal (ZMod p) := arrF n fun k => .field (f k)

theorem fieldsF_congr {n : ℕ} {f g : ℕ → ZMod p} (h : ∀ k < n, f k = g k) : fieldsF n f = fieldsF n g := arrF_congr fun k hk => by rw [h k hk]

theorem hasType_field (a : ZMod p) : HasType (p := p) .field (.field a) := trivial
theorem hasType_fieldsF {n : ℕ} {f : ℕ → ZMod p} : HasType (.array n .field) (fieldsF n f) := hasType_arrF fun _ _ => hasType_field _

theorem fieldsV_eq (s : List (ZMod p)) : AVal.array (s.map AVal.field) = fieldsF s.length fun k => s.getD k 0 := by
  rw [fieldsF, arrF]
  congr 1
  refine List.ext_getElem (by simp) fun k h1 h2 => ?_
  simp only [List.length_map] at h1
  simp [h1]

theorem fieldsF_eq (n : ℕ) (f : ℕ → ZMod p) : fieldsF n f = .array (((List.range n).map f).map AVal.field) := by
  rw [fieldsF, arrF, List.map_map]; rfl

section
variable {env : TEnv p}

theorem ev_fs {x : TId} {n : ℕ} {f : ℕ → ZMod p} (h : env x = some (fieldsF n f)) : evalT env (.ident x (.array n .field)) = .ok (fieldsF n f) := ev_ident h hasType_fieldsF
theorem ev_fselAt {x : TId} {n k : ℕ} {f : ℕ → ZMod p} {i : TExpr (ZMod p)} (h : env x = some (fieldsF n f)) (hi : evalT env i = .ok (.uint .b32 k)) (hk : k < n) : evalT env (fselAt x n i) = .ok (.field (f k)) :=
  ev_selF (f := fun k => .field (f k)) h (fun _ _ => hasType_field _) hi hk

theorem evS_flits : ∀ ns : List ℕ, evalS env (ns.map fun (n : ℕ) => .expr (.fval (n : ZMod p))) = .ok (ns.map fun n : ℕ => .field (n : ZMod p))
  | [] => evS_nil
  | _ :: ns => evS_expr ev_fval (evS_flits ns)

theorem ev_flit {ns : List ℕ} {i : TExpr (ZMod p)} {k : ℕ} (hi : evalT env i = .ok (.uint .b32 k)) (hk : k < ns.length) : evalT env (.select .field (flits ns) i) = .ok (.field ((ns.getD k 0 : ℕ) : ZMod p)) :=
  ev_select (ev_array (evS_flits ns)) hi (by simp [hk])

theorem ev_fzeros {n k : ℕ} {e : TExpr (ZMod p)} (he : evalT env e = .ok (.uint .b32 k)) : evalT env (fzeros n e) = .ok (fieldsF k fun _ => 0) := by
  rw [fzeros, ev_repeat ev_fval he, arrF_replicate]; rfl

theorem ev_ifZero {t : CType} {x : TId} {n : ℕ} {a b : TExpr (ZMod p)} {v w : AVal (ZMod p)} (h : env x = some (.uint .b32 n)) (hn : n < 2 ^ 32) (ha : evalT env a = .ok v) (hb : evalT env b = .ok w) :
    evalT env (ifZero t x a b) = .ok (if n = 0 then v else w) := by
  classical
  refine (ev_cond (ev_eq (ev_uv h hn) ev_ul) ha hb).trans ?_
  by_cases h0 : n = 0
  · rw [if_pos h0, h0, decide_eq_true rfl]; rfl
  · rw [if_neg h0, decide_eq_false (by simpa using h0)]; rfl

theorem ev_ult {l r : TExpr (ZMod p)} {a b : ℕ} (hl : evalT env l = .ok (.uint .b32 a)) (hr : evalT env r = .ok (.uint .b32 b)) (ht : l.ty = u32) : evalT env (.ucmp .lt l r) = .ok (.bool (decide (a < b))) := by
  simp [evalT, hl, hr, ht, bind, Except.bind, asUintOf, asUint]

/-- `x == 0 ? 0 : x - 1` -/
theorem ev_pred {x : TId} {n : ℕ} (h : env x = some (.uint .b32 n)) (hn : n < 2 ^ 32) : evalT env (ifZero u32 x (ul 0) (usub (uv x) (ul 1))) = .ok (.uint .b32 (n - 1)) := by
  refine (ev_ifZero h hn ev_ul (ev_ubin (ev_uv h hn) ev_ul rfl)).trans ?_
  by_cases h0 : n = 0
  · rw [if_pos h0, h0]
  · rw [if_neg h0]
    have : (n + (2 ^ 32 - 1)) % 2 ^ 32 = n - 1 := by omega
    exact congrArg (fun m => Except.ok (AVal.uint .b32 m)) this

theorem setA_field {x : TId} {n k : ℕ} {f g : ℕ → ZMod p} {i : TExpr (ZMod p)} {a : ZMod p} (h : env x = some (fieldsF n f)) (hi : evalT env i = .ok (.uint .b32 k)) (hk : k < n) (hg : ∀ j < n, g j = if j = k then a else f j) :
    setA env (.select (.ident x (.array n .field)) i) (.field a) = .ok (fieldsF n g) := by
  rw [setA_F (f := fun k => .field (f k)) h (fun _ _ => hasType_field _) hi hk]
  congr 1
  refine arrF_congr fun j hj => ?_
  rw [hg j hj]
  split <;> rfl
end

/-- An array with one more element. -/
def upd {α : Type} (f : ℕ → α) (k : ℕ) (a : α) : ℕ → α := fun j => if j = k then a else f j

theorem upd_same {α : Type} (f : ℕ → α) (k : ℕ) (a : α) : upd f k a k = a := if_pos rfl
theorem upd_ne {α : Type} (f : ℕ → α) {k j : ℕ} (a : α) (h : j ≠ k) : upd f k a j = f j := if_neg h

theorem wp_setField {σ : TState p} {x : TId} {n k : ℕ} {i e : TExpr (ZMod p)} {f : ℕ → ZMod p} {a : ZMod p} {ss : List (SStmt (ZMod p))} {R : Except Fault (TState p) → Prop}
    (h : σ.env x = some (fieldsF n f)) (hi : evalT σ.env i = .ok (.uint .b32 k)) (hk : k < n) (he : evalT σ.env e = .ok (.field a))
    (hw : WP O P (σ.set x (fieldsF n (upd f k a))) ss R) : WP O P σ (setAt x n .field i e :: ss) R :=
  wp_def he (setA_field h hi hk fun _ _ => rfl) hw

/-! ### MiMC7 -/

/-- The constants of MiMC7. -/
def c7 (p : ℕ) (n : ℕ) : ZMod p := ((mimc7C.getD n 0 : ℕ) : ZMod p)

theorem c7_zero : c7 p 0 = 0 := by rw [c7, show mimc7C.getD 0 0 = 0 by decide +kernel, Nat.cast_zero]

theorem mimc7_spec {R : ℕ} (h1 : 1 ≤ R) (h2 : R ≤ 91) (x k : ZMod p) : CallsTo O P (mimc7 R) [.field x, .field k] (.ok (.field (cipher7 (c7 p) R k x))) := by
  rw [callsTo_iff]
  have hR : R < 2 ^ 32 := by omega
  refine fwp (wp_var ev_fval (wp_var (ev_fzeros (ev_uv (n := R) lk(rfl) hR)) (wp_var (ev_fzeros (ev_uv (n := R) lk(rfl) hR)) (wp_var (ev_fzeros (ev_uv (n := R) lk(rfl) hR)) (wp_var (ev_fzeros (ev_uv (n := R) lk(rfl) hR)) ?_)))))
  refine wp_for (l := 0) (h := R) (fun i σ => σ.env 0 = some (.field x) ∧ σ.env 1 = some (.field k) ∧ σ.env 9 = some (.uint .b32 R) ∧ ∃ t t2 t4 t6 t7, σ.env 2 = some (.field t) ∧ σ.env 3 = some (fieldsF R t2) ∧
    σ.env 4 = some (fieldsF R t4) ∧ σ.env 5 = some (fieldsF R t6) ∧ σ.env 6 = some (fieldsF R t7) ∧ (1 ≤ i → t7 (i - 1) = rounds7 (c7 p) k x i ∧ t6 (i - 1) * t = rounds7 (c7 p) k x i)) ev_ul (ev_uv lk(rfl) hR) (by omega)
    ⟨rfl, rfl, rfl, _, _, _, _, _, rfl, rfl, rfl, rfl, rfl, fun h => absurd h (by omega)⟩ ?_ ?_
  · rintro i σ - hi ⟨e0, e1, e9, t, t2, t4, t6, t7, e2, e3, e4, e5, e6, ht⟩
    refine wp_var (ev_pred (n := i) lk(rfl) (by omega)) ?_
    have hi' : i - 1 < R := by omega
    refine wp_var (v := .field (rounds7 (c7 p) k x i + k + c7 p i)) ?_ ?_
    · refine (ev_ifZero (n := i) lk(rfl) (by omega) (ev_add (ev_fv lk(e1)) (ev_fv lk(e0))) (ev_add (ev_add (ev_fv lk(e1)) (ev_fselAt lk(e6) (ev_uv lk(rfl) (by omega)) hi')) (ev_flit (ev_uv lk(rfl) (by omega)) (show i < 91 by omega)))).trans ?_
      by_cases h : i = 0
      · subst h
        rw [if_pos rfl, rounds7]
        rw [c7_zero, add_zero, add_comm]
      · rw [if_neg h, (ht (by omega)).1, add_comm k]; rfl
    refine wp_setField lk(e3) (ev_uv lk(rfl) (by omega)) hi (ev_mul (ev_fv lk(rfl)) (ev_fv lk(rfl))) ?_
    refine wp_setField lk(e4) (ev_uv lk(rfl) (by omega)) hi (ev_mul (ev_fselAt lk(rfl) (ev_uv lk(rfl) (by omega)) hi) (ev_fselAt lk(rfl) (ev_uv lk(rfl) (by omega)) hi)) ?_
    refine wp_setField lk(e5) (ev_uv lk(rfl) (by omega)) hi (ev_mul (ev_fselAt lk(rfl) (ev_uv lk(rfl) (by omega)) hi) (ev_fselAt lk(rfl) (ev_uv lk(rfl) (by omega)) hi)) ?_
    refine wp_setField lk(e6) (ev_uv lk(rfl) (by omega)) hi (ev_mul (ev_fselAt lk(rfl) (ev_uv lk(rfl) (by omega)) hi) (ev_fv lk(rfl))) ?_
    refine wp_nil ⟨e0, e1, e9, _, _, _, _, _, rfl, rfl, rfl, rfl, rfl, fun _ => ?_⟩
    simp only [upd_same, Nat.add_sub_cancel, rounds7]
    constructor <;> ring
  · rintro σ ⟨e0, e1, e9, t, t2, t4, t6, t7, e2, e3, e4, e5, e6, ht⟩
    refine wp_nil ((ev_add (ev_mul (ev_fselAt lk(e5) (ev_isub (ev_uv lk(e9) hR) ev_ul h1 hR) (by omega)) (ev_fv lk(e2))) (ev_fv lk(e1))).trans ?_)
    rw [(ht h1).2, cipher7]

/-! ### The Feistel network -/

/-- The constants of MiMCFeistel. -/
def cF (p : ℕ) (n : ℕ) : ZMod p := ((mimcIV.getD n 0 : ℕ) : ZMod p)

theorem cF_zero : cF p 0 = 0 := by rw [cF, show mimcIV.getD 0 0 = 0 by decide +kernel, Nat.cast_zero]

/-- The state after `n` steps of the loop. -/
def feistelOut (k : ZMod p) (s : ZMod p × ZMod p) (n : ℕ) : ZMod p × ZMod p := if n < 220 then feistel (cF p) k s n else cipherF (cF p) 220 k s

/-- A pair as a value. -/
def pairF (s : ZMod p × ZMod p) : AVal (ZMod p) := .array [.field s.1, .field s.2]

theorem mimcFeistel_spec (xl xr k : ZMod p) : CallsTo O P mimcFeistel [.field xl, .field xr, .field k] (.ok (pairF (cipherF (cF p) 220 k (xl, xr)))) := by
  rw [callsTo_iff]
  refine fwp (wp_var (ev_fzeros ev_ul) (wp_var (ev_fzeros ev_ul) (wp_var (ev_fzeros ev_ul) (wp_var (ev_fzeros ev_ul) (wp_var ev_fval (wp_var ev_fval ?_))))))
  refine wp_for (l := 0) (h := 220) (fun i σ => σ.env 0 = some (.field xl) ∧ σ.env 1 = some (.field xr) ∧ σ.env 2 = some (.field k) ∧ ∃ t2 t4 fl fr, σ.env 3 = some (fieldsF 220 t2) ∧
    σ.env 4 = some (fieldsF 220 t4) ∧ σ.env 5 = some (fieldsF 220 fl) ∧ σ.env 6 = some (fieldsF 220 fr) ∧ (1 ≤ i → (fl (i - 1), fr (i - 1)) = feistelOut k (xl, xr) i)) ev_ul ev_ul (by omega)
    ⟨rfl, rfl, rfl, _, _, _, _, rfl, rfl, rfl, rfl, fun h => absurd h (by omega)⟩ ?_ ?_
  · rintro i σ - hi ⟨e0, e1, e2, t2, t4, fl, fr, e3, e4, e5, e6, ht⟩
    have hi' : i - 1 < 220 := by omega
    have hs : ∀ h : 1 ≤ i, (fl (i - 1), fr (i - 1)) = feistel (cF p) k (xl, xr) i := by
      intro h
      rw [ht h, feistelOut, if_pos hi]
    generalize hst : feistel (cF p) k (xl, xr) i = st at hs
    have h0 : i = 0 → st = (xl, xr) := by rintro rfl; exact hst.symm
    refine wp_var (ev_pred (n := i) lk(rfl) (by omega)) (wp_var (ev_flit (ns := mimcIV) (ev_uv (n := i) lk(rfl) (by omega)) (show i < 220 from hi)) ?_)
    refine wp_var (v := .field (k + st.1 + cF p i)) ?_ ?_
    · refine (ev_ifZero (n := i) lk(rfl) (by omega) (ev_add (ev_fv lk(e2)) (ev_fv lk(e0))) (ev_add (ev_add (ev_fv lk(e2)) (ev_fselAt lk(e5) (ev_uv lk(rfl) (by omega)) hi')) (ev_fv lk(rfl)))).trans ?_
      by_cases h : i = 0
      · rw [if_pos h, h0 h, h, cF_zero, add_zero]
      · rw [if_neg h, ← hs (by omega)]; rfl
    generalize hk : k + st.1 + cF p i = t
    refine wp_setField lk(e3) (ev_uv lk(rfl) (by omega)) hi (ev_mul (ev_fv lk(rfl)) (ev_fv lk(rfl))) ?_
    refine wp_setField lk(e4) (ev_uv lk(rfl) (by omega)) hi (ev_mul (ev_fselAt lk(rfl) (ev_uv lk(rfl) (by omega)) hi) (ev_fselAt lk(rfl) (ev_uv lk(rfl) (by omega)) hi)) ?_
    have hlt : ∀ σ : TState p, σ.env 9 = some (.uint .b32 i) → evalT σ.env (.ucmp .lt (uv 9) (usub (ul 220) (ul 1))) = .ok (.bool (decide (i < 219))) :=
      fun σ h9 => ev_ult (ev_uv h9 (by omega)) (ev_isub ev_ul ev_ul (by omega) (by omega)) rfl
    have hp5 : upd t4 i (upd t2 i (t * t) i * upd t2 i (t * t) i) i * t = t ^ 5 := by
      rw [upd_same, upd_same]; ring
    generalize upd t4 i (upd t2 i (t * t) i * upd t2 i (t * t) i) = t4' at hp5 ⊢
    have h4 : ∀ σ : TState p, σ.env 4 = some (fieldsF 220 t4') → σ.env 7 = some (.field t) → σ.env 9 = some (.uint .b32 i) → evalT σ.env (fmul (fselAt 4 220 (uv 9)) (fv 7)) = .ok (.field (t ^ 5)) := by
      intro σ e4 e7 e9
      rw [← hp5]
      exact ev_mul (ev_fselAt e4 (ev_uv e9 (by omega)) hi) (ev_fv e7)
    refine wp_setField (a := if i < 219 then st.2 + t ^ 5 else st.1) lk(e5) (ev_uv lk(rfl) (by omega)) hi ?_ ?_
    · refine (ev_cond (hlt _ lk(rfl)) (ev_ifZero (n := i) lk(rfl) (by omega) (ev_add (ev_fv lk(e1)) (h4 _ lk(rfl) lk(rfl) lk(rfl))) (ev_add (ev_fselAt lk(e6) (ev_uv lk(rfl) (by omega)) hi') (h4 _ lk(rfl) lk(rfl) lk(rfl))))
        (ev_fselAt lk(e5) (ev_uv lk(rfl) (by omega)) hi')).trans ?_
      by_cases h : i = 0
      · rw [if_pos h, h0 h, if_pos (show i < 219 by omega), decide_eq_true (show i < 219 by omega)]; rfl
      · rw [if_neg h, ← hs (by omega)]
        by_cases h2 : i < 219
        · rw [if_pos h2, decide_eq_true h2]; rfl
        · rw [if_neg h2, decide_eq_false h2]; rfl
    refine wp_setField (a := if i < 219 then st.1 else st.2 + t ^ 5) lk(e6) (ev_uv lk(rfl) (by omega)) hi ?_ ?_
    · refine (ev_cond (hlt _ lk(rfl)) (ev_ifZero (n := i) lk(rfl) (by omega) (ev_fv lk(e0)) (ev_fselAt lk(rfl) (ev_uv lk(rfl) (by omega)) hi')) (ev_add (ev_fselAt lk(e6) (ev_uv lk(rfl) (by omega)) hi') (h4 _ lk(rfl) lk(rfl) lk(rfl)))).trans ?_
      by_cases h : i = 0
      · rw [if_pos h, h0 h, if_pos (show i < 219 by omega), decide_eq_true (show i < 219 by omega)]; rfl
      · rw [if_neg h, upd_ne _ _ (by omega), ← hs (by omega)]
        by_cases h2 : i < 219
        · rw [if_pos h2, decide_eq_true h2]; rfl
        · rw [if_neg h2, decide_eq_false h2]; rfl
    refine wp_nil ⟨e0, e1, e2, _, _, _, _, rfl, rfl, rfl, rfl, fun _ => ?_⟩
    rw [Nat.add_sub_cancel, upd_same, upd_same, feistelOut]
    by_cases h2 : i < 219
    · rw [if_pos h2, if_pos h2, if_pos (by omega), feistel, hst, hk]
    · obtain rfl : i = 219 := by omega
      rw [if_neg h2, if_neg h2, if_neg (by omega), cipherF, hst, hk]
  · rintro σ ⟨e0, e1, e2, t2, t4, fl, fr, e3, e4, e5, e6, ht⟩
    refine wp_nil ((ev_array (evS_expr (ev_fselAt lk(e5) (ev_isub ev_ul ev_ul (by omega) (by omega)) (by omega)) (evS_expr (ev_fselAt lk(e6) (ev_isub ev_ul ev_ul (by omega) (by omega)) (by omega)) evS_nil))).trans ?_)
    have := ht (by omega)
    rw [feistelOut, if_neg (by omega)] at this
    rw [← this]
    rfl

/-! ### The sponge -/

/-- An array of pairs. -/
def pairsF (n : ℕ) (f : ℕ → ZMod p × ZMod p) : AVal (ZMod p) := arrF n fun k => pairF (f k)

theorem hasType_pairF (s : ZMod p × ZMod p) : HasType ptTy (pairF s) := by
  simp [pairF, ptTy, HasType]

theorem ev_spongeSel {env : TEnv p} {n k m : ℕ} {f : ℕ → ZMod p × ZMod p} {i : TExpr (ZMod p)} {a : ZMod p} (h : env 2 = some (pairsF n f)) (hi : evalT env i = .ok (.uint .b32 k)) (hk : k < n) (hm : [(f k).1, (f k).2][m]? = some a) :
    evalT env (spongeSel n i m) = .ok (.field a) := by
  refine ev_select (ev_selF (f := fun k => pairF (f k)) h (fun _ _ => hasType_pairF _) hi hk) ev_ul ?_
  have : [(AVal.field (f k).1 : AVal (ZMod p)), .field (f k).2] = [(f k).1, (f k).2].map AVal.field := rfl
  rw [this, List.getElem?_map, hm]
  rfl

theorem setA_pair {env : TEnv p} {n k : ℕ} {f : ℕ → ZMod p × ZMod p} {i : TExpr (ZMod p)} {a : ZMod p × ZMod p} (h : env 2 = some (pairsF n f)) (hi : evalT env i = .ok (.uint .b32 k)) (hk : k < n) :
    setA env (.select (.ident 2 (.array n ptTy)) i) (pairF a) = .ok (pairsF n (upd f k a)) := by
  rw [setA_F (f := fun k => pairF (f k)) h (fun _ _ => hasType_pairF _) hi hk]
  congr 1
  refine arrF_congr fun j hj => ?_
  rw [upd]
  split <;> rfl

theorem absorb_take (k : ZMod p) (ins : List (ZMod p)) (i : ℕ) (hi : i < ins.length) :
    absorb (cF p) 220 k (ins.take (i + 1)) = cipherF (cF p) 220 k ((absorb (cF p) 220 k (ins.take i)).1 + ins.getD i 0, (absorb (cF p) 220 k (ins.take i)).2) := by
  rw [absorb, ← List.take_concat_get' _ _ hi, List.foldl_append, List.getD_eq_getElem _ _ hi]
  rfl

theorem mimcSponge_spec (hP : Imports P mimc) {ins : List (ZMod p)} {nI nO : ℕ} (hl : ins.length = nI) (h1 : 1 ≤ nI) (h2 : 1 ≤ nO) (h3 : nI + nO < 2 ^ 32) (k : ZMod p) :
    CallsTo O P (mimcSponge nI nO) [.array (ins.map AVal.field), .field k] (.ok (.array ((sponge (cF p) 220 k ins nO).map AVal.field))) := by
  rw [callsTo_iff, fieldsV_eq, hl]
  have hn : evalT (calleeState (mimcSponge nI nO) [fieldsF nI fun k => ins.getD k 0, .field k]).env (usub (uadd (uv 8) (uv 9)) (ul 1)) = .ok (.uint .b32 (nI + nO - 1)) :=
    ev_isub (ev_iadd (ev_uv lk(rfl) (by omega)) (ev_uv lk(rfl) (by omega)) h3) ev_ul (by omega) h3
  refine fwp (wp_var (v := pairsF (nI + nO - 1) fun _ => (0, 0)) ?_ (wp_var (ev_fzeros (ev_uv (n := nO) lk(rfl) (by omega))) ?_))
  · refine (ev_repeat (ev_fzeros ev_ul) hn).trans ?_
    rw [arrF_replicate]; rfl
  generalize hc : cipherF (cF p) 220 k = C
  refine wp_for (l := 0) (h := nI) (fun i σ => σ.env 0 = some (fieldsF nI fun k => ins.getD k 0) ∧ σ.env 1 = some (.field k) ∧ σ.env 8 = some (.uint .b32 nI) ∧ σ.env 9 = some (.uint .b32 nO) ∧
    σ.env 3 = some (fieldsF nO fun _ => 0) ∧ ∃ f, σ.env 2 = some (pairsF (nI + nO - 1) f) ∧ (1 ≤ i → f (i - 1) = absorb (cF p) 220 k (ins.take i))) ev_ul (ev_uv lk(rfl) (by omega)) (by omega)
    ⟨rfl, rfl, rfl, rfl, rfl, _, rfl, fun h => absurd h (by omega)⟩ ?_ ?_
  · rintro i σ - hi ⟨e0, e1, e8, e9, e3, f, e2, hf⟩
    refine wp_var (ev_pred (n := i) lk(rfl) (by omega)) ?_
    refine wp_callTo (evL_cons (ev_fselAt lk(e0) ev_ul (by omega)) (evL_cons ev_fval (evL_cons (ev_fv lk(e1)) evL_nil))) (hP _ _ _ _ _ rfl) (mimcFeistel_spec _ _ _) ?_
    refine wp_callTo (evL_cons (ev_add (ev_spongeSel lk(e2) (ev_uv lk(rfl) (by omega)) (by omega) rfl) (ev_fselAt lk(e0) (ev_uv lk(rfl) (by omega)) hi)) (evL_cons (ev_spongeSel lk(e2) (ev_uv lk(rfl) (by omega)) (by omega) rfl) (evL_cons (ev_fv lk(e1)) evL_nil)))
      (hP _ _ _ _ _ rfl) (mimcFeistel_spec _ _ _) ?_
    refine wp_def (v := pairF (absorb (cF p) 220 k (ins.take (i + 1)))) ?_ (setA_pair lk(e2) (ev_uv lk(rfl) (by omega)) (by omega)) (wp_nil ⟨e0, e1, e8, e9, e3, _, rfl, fun _ => ?_⟩)
    · refine (ev_ifZero (n := i) lk(rfl) (by omega) (ev_ident lk(rfl) (hasType_pairF _)) (ev_ident lk(rfl) (hasType_pairF _))).trans ?_
      rw [absorb_take k ins i (by omega)]
      by_cases h : i = 0
      · subst h
        rw [if_pos rfl, List.take_zero, absorb]
        simp only [List.foldl_nil, zero_add]
      · rw [if_neg h, hf (by omega)]
    · rw [Nat.add_sub_cancel, upd_same]
  rintro σ ⟨e0, e1, e8, e9, e3, f, e2, hf⟩
  have hf1 := hf h1
  rw [List.take_of_length_le (by omega)] at hf1
  refine wp_setField (a := (f (nI - 1)).1) lk(e3) ev_ul (by omega) (ev_spongeSel lk(e2) (ev_isub (ev_uv lk(e8) (by omega)) ev_ul h1 (by omega)) (by omega) rfl) ?_
  refine wp_for (l := 0) (h := nO - 1) (fun i σ => σ.env 1 = some (.field k) ∧ σ.env 8 = some (.uint .b32 nI) ∧ σ.env 9 = some (.uint .b32 nO) ∧
    (∃ f, σ.env 2 = some (pairsF (nI + nO - 1) f) ∧ f (nI + i - 1) = C^[i] (absorb (cF p) 220 k ins)) ∧
    ∃ g, σ.env 3 = some (fieldsF nO g) ∧ ∀ j ≤ i, g j = (C^[j] (absorb (cF p) 220 k ins)).1) ev_ul (ev_isub (ev_uv lk(e9) (by omega)) ev_ul h2 (by omega)) (by omega)
    ⟨e1, e8, e9, ⟨f, e2, hf1⟩, _, rfl, fun j hj => ?_⟩ ?_ ?_
  · obtain rfl : j = 0 := by omega
    rw [upd_same, hf1]; rfl
  · clear e0 e1 e8 e9 e3 e2 hf hf1 f σ
    rintro i σ - hi ⟨e1, e8, e9, ⟨f, e2, hf⟩, g, e3, hg⟩
    have hx : ∀ σ : TState p, σ.env 8 = some (.uint .b32 nI) → σ.env 4 = some (.uint .b32 i) → evalT σ.env (uadd (uv 8) (uv 4)) = .ok (.uint .b32 (nI + i)) :=
      fun σ e8 e4 => ev_iadd (ev_uv e8 (by omega)) (ev_uv e4 (by omega)) (by omega)
    have hy : ∀ σ : TState p, σ.env 8 = some (.uint .b32 nI) → σ.env 4 = some (.uint .b32 i) → evalT σ.env (usub (uadd (uv 8) (uv 4)) (ul 1)) = .ok (.uint .b32 (nI + i - 1)) :=
      fun σ e8 e4 => ev_isub (hx σ e8 e4) ev_ul (by omega) (by omega)
    refine wp_call (cwp_here [] evL_nil (evL_cons (ev_spongeSel lk(e2) (hy _ lk(e8) lk(rfl)) (by omega) rfl) (evL_cons (ev_spongeSel lk(e2) (hy _ lk(e8) lk(rfl)) (by omega) rfl) (evL_cons (ev_fv lk(e1)) evL_nil))) (hP _ _ _ _ _ rfl)
      (FWP.mono (callsTo_iff.1 (mimcFeistel_spec _ _ _)) ?_))
    rintro r rfl
    refine ⟨_, setA_pair lk(e2) (hx _ lk(e8) lk(rfl)) (by omega), ?_⟩
    rw [hf, Prod.mk.eta, hc]
    refine wp_setField lk(e3) (ev_iadd (ev_uv (n := i) lk(rfl) (by omega)) ev_ul (by omega)) (by omega) (ev_spongeSel lk(rfl) (hx _ lk(e8) lk(rfl)) (by omega) rfl) (wp_nil ⟨e1, e8, e9, ⟨_, rfl, ?_⟩, _, rfl, fun j hj => ?_⟩)
    · rw [show nI + (i + 1) - 1 = nI + i by omega, upd_same, Function.iterate_succ_apply']
    · by_cases h : j = i + 1
      · rw [h, upd_same, upd_same, Function.iterate_succ_apply']
      · rw [upd_ne _ _ h]
        exact hg j (by omega)
  · rintro σ ⟨-, -, -, -, g, e3, hg⟩
    refine wp_nil ((ev_fs lk(e3)).trans ?_)
    rw [fieldsF_congr (fun j hj => hg j (by omega)), fieldsF_eq, sponge, hc]

end Zok.Typed.Std
