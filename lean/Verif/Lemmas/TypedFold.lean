import Verif.Spec.TypedPropagator
import Verif.Lemmas.TypedNode

/-
Constant propagation on typed programs: folding an operator whose operands have been folded keeps its value.
-/

set_option linter.unusedSectionVars false
set_option linter.unusedSimpArgs false

namespace Zok.Typed
open Abi
variable {p : ℕ} [Fact p.Prime] {env : TEnv p} {v : AVal (ZMod p)}

/-- The result has the value `v`, or it is an error which does not claim that there is none. -/
def Keeps (env : TEnv p) (v : AVal (ZMod p)) : Except PErr (TExpr (ZMod p)) → Prop
  | .ok e => evalT env e = .ok v
  | .error er => ¬ er.Detected

theorem litF_some {e : TExpr (ZMod p)} {a : ZMod p} (h : e.litF = some a) : e = .fval a := by
  cases e <;> simp_all [TExpr.litF]
theorem litB_some {e : TExpr (ZMod p)} {a : Bool} (h : e.litB = some a) : e = .bval a := by
  cases e <;> simp_all [TExpr.litB]
theorem litU_some {e : TExpr (ZMod p)} {a : ℕ} (h : e.litU = some a) : ∃ w, e = .uval w a := by
  cases e <;> simp_all [TExpr.litU]

theorem field_lit {e : TExpr (ZMod p)} {a : ZMod p} (h : e.litF = some a) : evalT env e = .ok (.field a) := by
  rw [litF_some h]; simp only [evalT]
theorem bool_lit {e : TExpr (ZMod p)} {a : Bool} (h : e.litB = some a) : evalT env e = .ok (.bool a) := by
  rw [litB_some h]; simp only [evalT]
theorem uint_lit {e : TExpr (ZMod p)} {a x : ℕ} {w : UW} (h : e.litU = some a) (hv : evalT env e = .ok (.uint w x)) : x = a := by
  obtain ⟨w', rfl⟩ := litU_some h
  simp only [evalT] at hv
  cases hv; rfl

theorem fbin_inv {op : FOp} {l r : TExpr (ZMod p)} (h : evalT env (.fbin op l r) = .ok v) : ∃ a b c, evalT env l = .ok (.field a) ∧ evalT env r = .ok (.field b) ∧
    op.eval a b = .ok c ∧ v = .field c := by
  simp only [evalT] at h
  obtain ⟨a, h1, h⟩ := bind_ok h
  obtain ⟨b, h2, h⟩ := bind_ok h
  obtain ⟨c, h3, h⟩ := bind_ok h
  obtain ⟨x, h4, h5⟩ := bind_ok h1
  obtain ⟨y, h6, h7⟩ := bind_ok h2
  cases asField_ok h5
  cases asField_ok h7
  cases h
  exact ⟨a, b, c, h4, h6, h3, rfl⟩

theorem foldF_keeps {op : FOp} {l r : TExpr (ZMod p)} (h : evalT env (.fbin op l r) = .ok v) : Keeps env v (foldF op l r) := by
  obtain ⟨a, b, c, hl, hr, hc, rfl⟩ := fbin_inv h
  have key : ∀ {x y}, l.litF = some x → r.litF = some y → x = a ∧ y = b := fun h1 h2 => by
    rw [field_lit h1] at hl; rw [field_lit h2] at hr
    cases hl; cases hr; exact ⟨rfl, rfl⟩
  have keyr : ∀ {y}, r.litF = some y → y = b := fun h2 => by
    rw [field_lit h2] at hr
    cases hr; rfl
  cases op <;> simp only [foldF, FOp.eval] at hc ⊢ <;> try cases hc
  all_goals
    first
    | (split
       · rename_i x y h1 h2
         obtain ⟨rfl, rfl⟩ := key h1 h2
         simp only [Keeps, evalT]
       · exact h)
    | skip
  by_cases hb : b = 0
  · simp [hb] at hc
  · simp only [if_neg hb] at hc
    cases hc
    split
    · rename_i x y h1 h2
      obtain ⟨rfl, rfl⟩ := key h1 h2
      rw [if_neg hb]
      split
      · rename_i hb1; subst hb1; simp only [Keeps]; rw [hl]; simp
      · simp only [Keeps, evalT, div_eq_mul_inv]
    · rename_i y h1 h2
      obtain rfl := keyr h2
      rw [if_neg hb]
      split
      · rename_i hb1; subst hb1; simp only [Keeps]; rw [hl]; simp
      · exact h
    · exact h

theorem fubin_inv {op : FUOp} {l r : TExpr (ZMod p)} (h : evalT env (.fubin op l r) = .ok v) : op = .pow ∧ ∃ a k, evalT env l = .ok (.field a) ∧
    evalT env r = .ok (.uint .b32 k) ∧ v = .field (a ^ k) := by
  simp only [evalT] at h
  obtain ⟨a, h1, h⟩ := bind_ok h
  obtain ⟨b, h2, h⟩ := bind_ok h
  obtain ⟨x, h4, h5⟩ := bind_ok h1
  obtain ⟨y, h6, h7⟩ := bind_ok h2
  cases asField_ok h5
  cases asUint_ok h7
  split at h
  · rename_i ho; cases h; exact ⟨ho, a, b, h4, h6, rfl⟩
  · cases h

theorem foldFU_keeps {op : FUOp} {l r : TExpr (ZMod p)} (h : evalT env (.fubin op l r) = .ok v) : Keeps env v (foldFU op l r) := by
  obtain ⟨rfl, a, k, hl, hr, rfl⟩ := fubin_inv h
  cases hu : r.litU with
  | none => simp only [foldFU, hu]; exact h
  | some n =>
    obtain rfl := uint_lit hu hr
    simp only [foldFU, hu]
    split
    · rename_i hk; subst hk; simp [Keeps, evalT]
    · split
      · rename_i x hx
        rw [field_lit hx] at hl
        cases hl
        simp only [Keeps, evalT]
      · exact h

theorem foldFneg_eval {e : TExpr (ZMod p)} (h : evalT env (.fneg e) = .ok v) : evalT env (foldFneg e) = .ok v := by
  unfold foldFneg
  split
  · rename_i n hn
    rw [litF_some hn] at h
    rw [← h]
    simp only [evalT]
    change _ = Except.ok (AVal.field (-n))
    simp
  · exact h

theorem foldFpos_eval {e : TExpr (ZMod p)} (h : evalT env (.fpos e) = .ok v) : evalT env (foldFpos e) = .ok v := by
  unfold foldFpos
  split
  · rename_i n hn
    rw [litF_some hn] at h
    rw [← h]
    simp only [evalT]
    rfl
  · exact h

theorem ubin_inv {w : UW} {op : UOp} {l r : TExpr (ZMod p)} (h : evalT env (.ubin w op l r) = .ok v) : ∃ a b c, evalT env l = .ok (.uint w a) ∧
    evalT env r = .ok (.uint (op.rightWidth w) b) ∧ op.eval w.bits a b = .ok c ∧ v = .uint w c := by
  simp only [evalT] at h
  obtain ⟨a, h1, h⟩ := bind_ok h
  obtain ⟨b, h2, h⟩ := bind_ok h
  obtain ⟨c, h3, h⟩ := bind_ok h
  obtain ⟨x, h4, h5⟩ := bind_ok h1
  obtain ⟨y, h6, h7⟩ := bind_ok h2
  cases asUint_ok h5
  cases asUint_ok h7
  cases h
  exact ⟨a, b, c, h4, h6, h3, rfl⟩

theorem ubin_of {w : UW} {op : UOp} {l r : TExpr (ZMod p)} {a b c : ℕ} (hl : evalT env l = .ok (.uint w a)) (hr : evalT env r = .ok (.uint (op.rightWidth w) b))
    (hc : op.eval w.bits a b = .ok c) : evalT env (.ubin w op l r) = .ok (.uint w c) := by
  have e1 : (Except.ok (AVal.uint w a) : Except Fault (AVal (ZMod p))).bind (asUint w) = .ok a := by simp [Except.bind, asUint]
  have e2 : (Except.ok (AVal.uint (op.rightWidth w) b) : Except Fault (AVal (ZMod p))).bind (asUint (op.rightWidth w)) = .ok b := by simp [Except.bind, asUint]
  simp only [evalT, hl, hr, e1, e2]
  change ((op.eval w.bits a b).bind fun c => _) = _
  rw [hc]
  rfl

theorem bits_le (w : UW) : w.bits ≤ 64 := by cases w <;> decide
theorem bits_dvd (w : UW) : 2 ^ w.bits ∣ 2 ^ 128 := Nat.pow_dvd_pow 2 (by have := bits_le w; omega)

theorem land_mask (a n : ℕ) : a &&& (2 ^ n - 1) = a % 2 ^ n := Nat.and_two_pow_sub_one_eq_mod a n

theorem sub_wrap {w : UW} {a b : ℕ} (hb : b < 2 ^ w.bits) : (a + (2 ^ 128 - b)) % 2 ^ 128 % 2 ^ w.bits = (a + (2 ^ w.bits - b)) % 2 ^ w.bits := by
  rw [Nat.mod_mod_of_dvd _ (bits_dvd w)]
  obtain ⟨k, hk⟩ := bits_dvd w
  have hk0 : 1 ≤ k := by
    rcases Nat.eq_zero_or_pos k with h | h
    · subst h; simp at hk
    · exact h
  obtain ⟨j, rfl⟩ : ∃ j, k = j + 1 := ⟨k - 1, by omega⟩
  have e1 : 2 ^ 128 - b = (2 ^ w.bits - b) + 2 ^ w.bits * j := by rw [hk, Nat.mul_add]; omega
  rw [e1, ← Nat.add_assoc, Nat.add_mul_mod_self_left]

theorem wt_lt {e : TExpr (ZMod p)} {w : UW} {a : ℕ} (hw : e.Wt) (h : evalT env e = .ok (.uint w a)) : a < 2 ^ w.bits := by
  have := eval_hasType env e _ hw h
  cases ht : e.ty <;> rw [ht] at this <;> simp_all [HasType]

theorem foldU_keeps {w : UW} {op : UOp} {l r : TExpr (ZMod p)} (wl : l.Wt) (wr : r.Wt) (h : evalT env (.ubin w op l r) = .ok v) : Keeps env v (foldU w op l r) := by
  obtain ⟨a, b, c, hl, hr, hc, rfl⟩ := ubin_inv h
  have la := wt_lt wl hl
  have lb := wt_lt wr hr
  have keyl : ∀ {x}, l.litU = some x → x = a := fun h1 => (uint_lit h1 hl).symm
  have keyr : ∀ {x}, r.litU = some x → x = b := fun h1 => (uint_lit h1 hr).symm
  have ev : ∀ n, evalT env (.uval w n) = .ok (.uint w n) := fun n => by simp only [evalT]
  have sw : ∀ {op : UOp} {x : ℕ}, op.rightWidth w = w → (∀ a b, op.eval w.bits a b = op.eval w.bits b a) → evalT env (.ubin w op l r) = .ok (.uint w x) →
      evalT env (.ubin w op r l) = .ok (.uint w x) := fun {op x} ho hcomm h => by
    obtain ⟨a', b', c', k1, k2, k3, k4⟩ := ubin_inv h
    cases k4
    rw [ho] at k2
    exact ubin_of k2 (by rw [ho]; exact k1) (by rw [hcomm]; exact k3)
  have rlit : ∀ {x}, r.litU = some x → r = .uval (op.rightWidth w) x := fun {x} h1 => by
    obtain ⟨w', rfl⟩ := litU_some h1
    simp only [evalT] at hr
    cases hr; rfl
  have llit : ∀ {x}, l.litU = some x → l = .uval w x := fun {x} h1 => by
    obtain ⟨w', rfl⟩ := litU_some h1
    simp only [evalT] at hl
    cases hl; rfl
  cases op with
  | add =>
    simp only [UOp.eval, Except.ok.injEq] at hc
    subst hc
    replace lb : b < 2 ^ w.bits := lb
    replace hr : evalT env r = .ok (.uint w b) := hr
    have hs := sw (op := .add) rfl (fun a b => by simp only [UOp.eval, Nat.add_comm]) h
    cases h1 : l.litU <;> cases h2 : r.litU <;> simp only [foldU, h1, h2] <;> (try obtain rfl := keyl h1) <;> (try obtain rfl := keyr h2)
    · exact h
    · rw [rlit h2] at h
      split
      · subst_vars; simp only [Keeps]; rw [hl, Nat.add_zero, Nat.mod_eq_of_lt la]
      · exact h
    · rw [llit h1] at hs
      split
      · subst_vars; simp only [Keeps]; rw [hr, Nat.zero_add, Nat.mod_eq_of_lt lb]
      · exact hs
    · exact ev _
  | sub =>
    simp only [UOp.eval, Except.ok.injEq] at hc
    subst hc
    replace lb : b < 2 ^ w.bits := lb
    replace hr : evalT env r = .ok (.uint w b) := hr
    cases h1 : l.litU <;> cases h2 : r.litU <;> simp only [foldU, h1, h2] <;> (try obtain rfl := keyl h1) <;> (try obtain rfl := keyr h2)
    · exact h
    · rw [rlit h2] at h
      split
      · subst_vars; simp only [Keeps]; rw [hl, Nat.sub_zero, Nat.add_mod_right, Nat.mod_eq_of_lt la]
      · exact h
    · exact h
    · rw [sub_wrap lb]; exact ev _
  | mult =>
    simp only [UOp.eval, Except.ok.injEq] at hc
    subst hc
    replace lb : b < 2 ^ w.bits := lb
    replace hr : evalT env r = .ok (.uint w b) := hr
    have hs := sw (op := .mult) rfl (fun a b => by simp only [UOp.eval, Nat.mul_comm]) h
    cases h1 : l.litU <;> cases h2 : r.litU <;> simp only [foldU, h1, h2] <;> (try obtain rfl := keyl h1) <;> (try obtain rfl := keyr h2)
    · exact h
    · rw [rlit h2] at h
      split
      · subst_vars; simp only [Keeps]; rw [ev]; simp
      · split
        · subst_vars; simp only [Keeps]; rw [hl, Nat.mul_one, Nat.mod_eq_of_lt la]
        · exact h
    · rw [llit h1] at hs
      split
      · subst_vars; simp only [Keeps]; rw [ev]; simp
      · split
        · subst_vars; simp only [Keeps]; rw [hr, Nat.one_mul, Nat.mod_eq_of_lt lb]
        · exact hs
    · exact ev _
  | div =>
    simp only [UOp.eval] at hc
    split at hc
    · cases hc
    · rename_i hb
      simp only [Except.ok.injEq] at hc
      subst hc
      cases h1 : l.litU <;> cases h2 : r.litU <;> simp only [foldU, h1, h2] <;> (try obtain rfl := keyl h1) <;> (try obtain rfl := keyr h2)
      · exact h
      · rw [rlit h2] at h
        split
        · subst_vars; simp only [Keeps]; rw [hl, Nat.div_one]
        · exact h
      · exact h
      · rw [if_neg hb, Nat.mod_eq_of_lt (lt_of_le_of_lt (Nat.div_le_self _ _) la)]; exact ev _
  | rem =>
    simp only [UOp.eval] at hc
    split at hc
    · cases hc
    · rename_i hb
      simp only [Except.ok.injEq] at hc
      subst hc
      cases h1 : l.litU <;> cases h2 : r.litU <;> simp only [foldU, h1, h2] <;> (try obtain rfl := keyl h1) <;> (try obtain rfl := keyr h2)
      · exact h
      · rw [rlit h2] at h
        split
        · subst_vars; simp only [Keeps]; rw [ev, Nat.mod_one]
        · exact h
      · exact h
      · rw [if_neg hb, Nat.mod_eq_of_lt (lt_of_le_of_lt (Nat.mod_le _ _) la)]; exact ev _
  | shr =>
    simp only [UOp.eval, Except.ok.injEq] at hc
    subst hc
    cases h1 : l.litU <;> cases h2 : r.litU <;> simp only [foldU, h1, h2] <;> (try obtain rfl := keyl h1) <;> (try obtain rfl := keyr h2)
    · exact h
    · exact h
    · exact h
    · split
      · simp [Keeps, PErr.Detected]
      · exact ev _
  | shl =>
    simp only [UOp.eval, Except.ok.injEq] at hc
    subst hc
    cases h1 : l.litU <;> cases h2 : r.litU <;> simp only [foldU, h1, h2] <;> (try obtain rfl := keyl h1) <;> (try obtain rfl := keyr h2)
    · exact h
    · exact h
    · exact h
    · split
      · simp [Keeps, PErr.Detected]
      · rw [land_mask, Nat.mod_mod_of_dvd _ (bits_dvd w)]; exact ev _
  | xor =>
    simp only [UOp.eval, Except.ok.injEq] at hc
    subst hc
    have hsame : l = r → a = b := fun hlr => by
      rw [hlr] at hl
      have : (UOp.xor).rightWidth w = w := rfl
      rw [this] at hr
      rw [hl] at hr
      cases hr; rfl
    cases h1 : l.litU <;> cases h2 : r.litU <;> simp only [foldU, h1, h2] <;> (try obtain rfl := keyl h1) <;> (try obtain rfl := keyr h2)
    · split
      · rename_i hlr; obtain rfl := hsame hlr; simp only [Keeps]; rw [ev, Nat.xor_self]
      · exact h
    · split
      · subst_vars; simp only [Keeps]; rw [hl, Nat.xor_zero]
      · split
        · rename_i hlr; obtain rfl := hsame hlr; simp only [Keeps]; rw [ev, Nat.xor_self]
        · exact h
    · split
      · subst_vars; simp only [Keeps]; rw [hr, Nat.zero_xor]; rfl
      · split
        · rename_i hlr; obtain rfl := hsame hlr; simp only [Keeps]; rw [ev, Nat.xor_self]
        · exact h
    · exact ev _
  | and =>
    simp only [UOp.eval, Except.ok.injEq] at hc
    subst hc
    cases h1 : l.litU <;> cases h2 : r.litU <;> simp only [foldU, h1, h2] <;> (try obtain rfl := keyl h1) <;> (try obtain rfl := keyr h2)
    · exact h
    · split
      · subst_vars; simp only [Keeps]; rw [ev, Nat.and_zero]
      · exact h
    · split
      · subst_vars; simp only [Keeps]; rw [ev, Nat.zero_and]
      · exact h
    · exact ev _
  | or => exact h

theorem foldUnot_eval {w : UW} {e : TExpr (ZMod p)} (hw : e.Wt) (h : evalT env (.unot w e) = .ok v) : evalT env (foldUnot w e) = .ok v := by
  unfold foldUnot
  split
  · rename_i n hn
    simp only [evalT] at h
    obtain ⟨a, h1, h⟩ := bind_ok h
    obtain ⟨x, h2, h3⟩ := bind_ok h1
    cases asUint_ok h3
    obtain rfl := uint_lit hn h2
    have hl := wt_lt hw h2
    cases h
    simp only [evalT, land_mask]
    congr 2
    have hd := bits_dvd w
    obtain ⟨k, hk⟩ := hd
    have hk0 : 1 ≤ k := by
      rcases Nat.eq_zero_or_pos k with h | h
      · subst h; simp at hk
      · exact h
    obtain ⟨j, rfl⟩ : ∃ j, k = j + 1 := ⟨k - 1, by omega⟩
    have e1 : 2 ^ 128 - 1 - a = (2 ^ w.bits - 1 - a) + 2 ^ w.bits * j := by rw [hk, Nat.mul_add]; omega
    rw [e1, Nat.add_mul_mod_self_left]
    exact Nat.mod_eq_of_lt (by omega)
  · exact h

theorem foldUneg_eval {w : UW} {e : TExpr (ZMod p)} (hw : e.Wt) (h : evalT env (.uneg w e) = .ok v) : evalT env (foldUneg w e) = .ok v := by
  unfold foldUneg
  split
  · rename_i n hn
    simp only [evalT] at h
    obtain ⟨a, h1, h⟩ := bind_ok h
    obtain ⟨x, h2, h3⟩ := bind_ok h1
    cases asUint_ok h3
    obtain rfl := uint_lit hn h2
    have hl := wt_lt hw h2
    cases h
    simp only [evalT]
    congr 2
    have := sub_wrap (w := w) (a := 0) hl
    simpa using this
  · exact h

theorem foldUpos_eval {w : UW} {e : TExpr (ZMod p)} (h : evalT env (.upos w e) = .ok v) : evalT env (foldUpos w e) = .ok v := by
  unfold foldUpos
  split
  · rename_i n hn
    simp only [evalT] at h
    obtain ⟨a, h1, h⟩ := bind_ok h
    obtain ⟨x, h2, h3⟩ := bind_ok h1
    cases asUint_ok h3
    obtain rfl := uint_lit hn h2
    cases h
    simp only [evalT]
  · exact h

theorem foldB_eval {op : BOp} {l r : TExpr (ZMod p)} (h : evalT env (.bbin op l r) = .ok v) : evalT env (foldB op l r) = .ok v := by
  have h0 := h
  simp only [evalT] at h
  obtain ⟨a, h1, h⟩ := bind_ok h
  obtain ⟨b, h2, h⟩ := bind_ok h
  obtain ⟨x, h4, h5⟩ := bind_ok h1
  obtain ⟨y, h6, h7⟩ := bind_ok h2
  cases asBool_ok h5
  cases asBool_ok h7
  cases h
  have keyl : ∀ {x}, l.litB = some x → x = a := fun h1 => by rw [bool_lit h1] at h4; cases h4; rfl
  have keyr : ∀ {x}, r.litB = some x → x = b := fun h1 => by rw [bool_lit h1] at h6; cases h6; rfl
  cases h1 : l.litB with
  | none => cases h2 : r.litB with
    | none => cases op <;> simp only [foldB, h1, h2] <;> exact h0
    | some y => obtain rfl := (keyr h2).symm; cases op <;> simp only [foldB, h1, h2] <;> cases b <;> simp_all [evalT]
  | some x =>
    obtain rfl := (keyl h1).symm
    cases h2 : r.litB with
    | none => cases op <;> simp only [foldB, h1, h2] <;> cases a <;> simp_all [evalT]
    | some y => obtain rfl := (keyr h2).symm; cases op <;> simp only [foldB, h1, h2, evalT]

theorem foldNot_eval {e : TExpr (ZMod p)} (h : evalT env (.bnot e) = .ok v) : evalT env (foldNot e) = .ok v := by
  unfold foldNot
  split
  · rename_i b hb
    rw [litB_some hb] at h
    rw [← h]
    simp only [evalT]
    rfl
  · exact h

theorem foldFcmp_eval {op : COp} {l r : TExpr (ZMod p)} (h : evalT env (.fcmp op l r) = .ok v) : evalT env (foldFcmp op l r) = .ok v := by
  have h0 := h
  unfold foldFcmp
  split
  · rename_i a b ha hb
    rw [litF_some ha, litF_some hb] at h
    simp only [evalT] at h
    obtain ⟨x, h1, h⟩ := bind_ok h
    obtain ⟨y, h2, h⟩ := bind_ok h
    cases h1; cases h2
    split at h
    · cases h; cases op <;> simp only [evalT]
    · cases h
  · exact h

theorem foldUcmp_eval {op : COp} {l r : TExpr (ZMod p)} (h : evalT env (.ucmp op l r) = .ok v) : evalT env (foldUcmp op l r) = .ok v := by
  unfold foldUcmp
  split
  · rename_i a b ha hb
    simp only [evalT] at h
    obtain ⟨x, h1, h⟩ := bind_ok h
    obtain ⟨y, h2, h⟩ := bind_ok h
    obtain ⟨x', h4, h5⟩ := bind_ok h1
    obtain ⟨y', h6, h7⟩ := bind_ok h2
    cases ht : l.ty <;> simp only [ht, asUintOf] at h5 h7 <;> try (cases h5; done)
    cases asUint_ok h5
    cases asUint_ok h7
    obtain rfl := uint_lit ha h4
    obtain rfl := uint_lit hb h6
    cases h
    cases op <;> simp only [evalT]
  · exact h

theorem foldCond_eval {t : CType} {c a b : TExpr (ZMod p)} (h : evalT env (.cond t c a b) = .ok v) : evalT env (foldCond t c a b) = .ok v := by
  unfold foldCond
  split
  · rename_i hab
    subst hab
    obtain ⟨k, x, y, h1, h2, h3, h4⟩ := cond_ok h
    rw [h2] at h3
    cases h3
    simp only [evalT, h1, h2] at h
    change Except.ok (if k then x else x) = _ at h
    rw [ite_self] at h
    rw [h2, h]
  · exact h

end Zok.Typed
