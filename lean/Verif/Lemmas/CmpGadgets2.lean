import Verif.Lemmas.CmpGadgets

/-
Completeness of the gadgets of the flattener, continued: comparisons, arithmetic, bitwise operations.
-/

set_option linter.unusedSectionVars false

namespace Zok
variable {p : ℕ} {Z : Type} [Fact p.Prime]
variable {sem : SolverSem (ZMod p) Z} {ρ : Assignment (ZMod p)} {L : ZId → Option Variable} {pre : Prop}

open FlatExpr Fld

namespace Cmp

theorem enforceConstantLe (e : FlatExpr (ZMod p)) (c : ZMod p) (err : RuntimeError) :
    Cmp sem ρ L (pre ∧ (e.val ρ).val ≤ c.val) (Flt.enforceConstantLe e c err : FlatM p Z _) (fun _ => True) := by
  unfold Flt.enforceConstantLe
  refine Cmp.bind ((getBits_field e _ err (pre := True)).pre_of ?_) fun bs =>
    (enforceLeBits bs _ (bitsBE (Fld.bits c) (e.val ρ).val) err (pre := True)).pre_of ?_
  · exact fun h => ⟨trivial, lt_of_le_of_lt h.2 (val_lt_bits c)⟩
  · rintro ⟨⟨_, h⟩, hb⟩
    refine ⟨⟨trivial, ?_⟩, hb⟩
    have h1 : requiredBits p - (requiredBits p - Fld.bits c) = Fld.bits c := by have := bits_le c; omega
    rw [natBE_bitsBE_of_lt (lt_of_le_of_lt h (val_lt_bits c)), natBE_drop, natBE_toBitsBe, length_toBitsBe, h1,
      Nat.mod_eq_of_lt (val_lt_bits c)]
    exact h

theorem enforceConstantLt (e : FlatExpr (ZMod p)) (c : ZMod p) (err : RuntimeError) :
    Cmp sem ρ L (pre ∧ (e.val ρ).val < c.val) (Flt.enforceConstantLt e c err : FlatM p Z _) (fun _ => True) := by
  unfold Flt.enforceConstantLt
  refine Cmp.ite (fun h => ?_) (fun h => ?_)
  · refine cond fun hh => ?_
    have := hh.2
    rw [h] at this; simp at this
  · refine (enforceConstantLe e (c - 1) err (pre := True)).pre_of fun hh => ⟨trivial, ?_⟩
    rw [val_sub_one h]
    have := hh.2
    omega

theorem constantFieldLe (e : FlatExpr (ZMod p)) (c : ZMod p) :
    Cmp sem ρ L pre (Flt.constantFieldLe e c : FlatM p Z _) (fun _ => True) := by
  unfold Flt.constantFieldLe
  have hlt : (e.val ρ).val < 2 ^ requiredBits p := lt_trans (val_lt _) lt_two_pow_required
  refine Cmp.bind ((getBits_field e _ _ (pre := pre)).pre_of fun h => ⟨h, hlt⟩) fun bs =>
    Cmp.bind ((enforceLeBits bs _ (bitsBE (requiredBits p) (e.val ρ).val) _ (pre := True)).pre_of ?_) fun _ =>
    Cmp.bind ((constantLeCheck bs _ (bitsBE (requiredBits p) (e.val ρ).val) (pre := True)).pre_of ?_).drop fun _ =>
      (eqCheck _ _).drop
  · rintro ⟨_, hb⟩
    refine ⟨⟨trivial, ?_⟩, hb⟩
    rw [natBE_bitsBE_of_lt hlt, natBE_toBitsBe, val_maxValue]
    have := val_lt (e.val ρ)
    omega
  · exact fun h => ⟨trivial, h.1.2⟩

theorem constantLt (e : FlatExpr (ZMod p)) (c : ZMod p) :
    Cmp sem ρ L pre (Flt.constantLt e c : FlatM p Z _) (fun _ => True) := by
  unfold Flt.constantLt
  exact Cmp.ite (fun h => Cmp.pure fun _ => trivial) (fun h => constantFieldLe e _)

theorem ltDynamic (l r : FlatExpr (ZMod p)) (w : ℕ) (hw : w + 1 < requiredBits p) :
    Cmp sem ρ L (pre ∧ (l.val ρ).val < 2 ^ w ∧ (r.val ρ).val < 2 ^ w) (Flt.ltDynamic l r w : FlatM p Z _)
      (fun _ => True) := by
  unfold Flt.ltDynamic
  refine Cmp.bind (define l) fun x => Cmp.bind (define r) fun y =>
    Cmp.bind ((getBits_field _ _ _ (pre := True)).pre_of ?_).drop fun bits => ?_
  · rintro ⟨⟨⟨_, hl, hr⟩, hx⟩, hy⟩
    refine ⟨trivial, ?_⟩
    simp only [FlatExpr.val, hx, hy]
    have hcast : (2 : ZMod p) ^ w + (l.val ρ - r.val ρ) =
        ((2 ^ w + (l.val ρ).val - (r.val ρ).val : ℕ) : ZMod p) := by
      rw [Nat.cast_sub (by omega)]
      push_cast
      rw [cast_val, cast_val]; ring
    have hpow : 2 ^ (w + 1) ≤ p := pow_le_p (by omega)
    rw [hcast, val_natCast_of_lt (by rw [pow_succ] at hpow; omega), pow_succ]
    omega
  · cases bits with
    | nil => exact Cmp.panic
    | cons b bits => exact Cmp.pure fun _ => trivial

theorem ltCheck (l r : FlatExpr (ZMod p)) (w : ℕ) (hw : w + 1 < requiredBits p) :
    Cmp sem ρ L (pre ∧ ((∀ c, l ≠ .value c) → (∀ c, r ≠ .value c) →
        (l.val ρ).val < 2 ^ w ∧ (r.val ρ).val < 2 ^ w)) (Flt.ltCheck l r w : FlatM p Z _) (fun _ => True) := by
  unfold Flt.ltCheck
  split
  · exact constantLt _ _
  · exact constantLt _ _
  · rename_i h1 h2
    exact (ltDynamic l r w hw (pre := True)).pre_of fun h => ⟨trivial, h.2 h1 h2⟩

theorem leCheck (l r : FlatExpr (ZMod p)) (w : ℕ) (hw : w + 1 < requiredBits p) :
    Cmp sem ρ L (pre ∧ ((∀ c, l ≠ .value c) → (∀ c, r ≠ .value c) →
        (l.val ρ).val < 2 ^ w ∧ (r.val ρ).val < 2 ^ w)) (Flt.leCheck l r w : FlatM p Z _) (fun _ => True) := by
  unfold Flt.leCheck
  exact Cmp.bind (eqCheck l r) fun e => Cmp.bind ((ltCheck l r w hw (pre := True)).pre_of
    fun h => ⟨trivial, h.1.2⟩) fun t => Cmp.pure fun _ => trivial

theorem val_safe : ((2 : ZMod p) ^ (requiredBits p - 2)).val = 2 ^ (requiredBits p - 2) := by
  have h2 := requiredBits_ge_two (p := p)
  apply val_two_pow
  have := two_pow_le (p := p)
  have h3 : 2 ^ (requiredBits p - 1) = 2 * 2 ^ (requiredBits p - 2) := by
    rw [← pow_succ']; congr 1; omega
  have := Nat.one_le_two_pow (n := requiredBits p - 2)
  omega

theorem enforceSafe (l r : FlatExpr (ZMod p)) :
    Cmp sem ρ L (pre ∧ (l.val ρ).val < 2 ^ (requiredBits p - 2) ∧ (r.val ρ).val < 2 ^ (requiredBits p - 2))
      (Flt.enforceSafe l r : FlatM p Z _) (fun _ => True) := by
  unfold Flt.enforceSafe
  exact Cmp.bind ((enforceConstantLt l _ _ (pre := True)).pre_of fun h => ⟨trivial, by rw [val_safe]; exact h.2.1⟩)
    fun _ => (enforceConstantLt r _ _ (pre := True)).pre_of fun h => ⟨trivial, by rw [val_safe]; exact h.1.2.2⟩

theorem fieldLtCheck (l r : FlatExpr (ZMod p)) :
    Cmp sem ρ L (pre ∧ ((∃ c, l = .value c) ∨ (∃ c, r = .value c) ∨
          ((l.val ρ).val < 2 ^ (requiredBits p - 2) ∧ (r.val ρ).val < 2 ^ (requiredBits p - 2))))
      (Flt.fieldLtCheck l r : FlatM p Z _) (fun _ => True) := by
  unfold Flt.fieldLtCheck
  split
  · exact constantLt _ _
  · exact constantLt _ _
  · rename_i h1 h2
    have h3 := requiredBits_ge_two (p := p)
    have key : (pre ∧ ((∃ c, l = .value c) ∨ (∃ c, r = .value c) ∨
          ((l.val ρ).val < 2 ^ (requiredBits p - 2) ∧ (r.val ρ).val < 2 ^ (requiredBits p - 2)))) →
          ((l.val ρ).val < 2 ^ (requiredBits p - 2) ∧ (r.val ρ).val < 2 ^ (requiredBits p - 2)) := by
      rintro ⟨_, ⟨c, h⟩ | ⟨c, h⟩ | h⟩
      · exact absurd h (h1 c)
      · exact absurd h (h2 c)
      · exact h
    exact Cmp.bind ((enforceSafe l r (pre := True)).pre_of fun h => ⟨trivial, key h⟩) fun _ =>
      (ltCheck l r _ (by omega) (pre := True)).pre_of fun h => ⟨trivial, fun _ _ => key h.1⟩

/-! ### Arithmetic -/

theorem divFlat (l r : FlatExpr (ZMod p)) : Cmp sem ρ L (pre ∧ r.val ρ ≠ 0) (Flt.divFlat l r : FlatM p Z _)
    (fun _ => True) := by
  unfold Flt.divFlat
  refine Cmp.bind (newDef l) fun a => Cmp.bind (newDef r) fun b => Cmp.bind useSym fun inv =>
    Cmp.bind (direc [ρ a / ρ b] ?_) fun _ => Cmp.bind (cond ?_) fun _ => Cmp.pure fun _ => trivial
  · rintro ⟨⟨⟨⟨_, hr⟩, _⟩, hb⟩, _⟩
    exact ⟨exec_div _ _ (by show ρ b ≠ 0; rw [hb]; exact hr), rfl⟩
  · rintro ⟨⟨⟨⟨⟨_, hr⟩, _⟩, hb⟩, _⟩, hi⟩
    simp only [List.map_cons, List.map_nil, List.cons.injEq, and_true] at hi
    simp only [FlatExpr.val, hi]
    rw [mul_div_cancel₀]
    rw [hb]; exact hr

theorem euclid (w : ℕ) (left right : FlatExpr (ZMod p)) (hw : 2 * w + 2 ≤ requiredBits p) :
    Cmp sem ρ L (pre ∧ (left.val ρ).val < 2 ^ w ∧ (right.val ρ).val < 2 ^ w ∧ right.val ρ ≠ 0)
      (Flt.euclid w left right : FlatM p Z _) (fun _ => True) := by
  have hpw : 2 ^ (w + 1) ≤ p := pow_le_p (by omega)
  rw [pow_succ] at hpw
  unfold Flt.euclid
  refine Cmp.bind (linearise left) fun n => Cmp.bind (linearise right) fun d => Cmp.bind useSym fun q =>
    Cmp.bind useSym fun r => Cmp.bind (direc [(((left.val ρ).val / (right.val ρ).val : ℕ) : ZMod p),
      (((left.val ρ).val % (right.val ρ).val : ℕ) : ZMod p)] ?_) fun _ =>
    Cmp.bind ((getBits_field _ _ _ (pre := True)).pre_of ?_).drop fun _ =>
    Cmp.bind ((getBits_field _ _ _ (pre := True)).pre_of ?_).drop fun _ =>
    Cmp.bind ((getBits_field _ _ _ (pre := True)).pre_of ?_).drop fun _ =>
    Cmp.bind (cond ?_) fun _ => Cmp.pure fun _ => trivial
  · rintro ⟨⟨⟨⟨⟨_, _, _, hz⟩, hn⟩, hd⟩, _⟩, _⟩
    refine ⟨?_, rfl⟩
    have := exec_euclid (sem := sem) (left.val ρ) (right.val ρ) hz
    simpa [hn, hd] using this
  · rintro ⟨⟨⟨⟨⟨⟨_, hl, hr, hz⟩, hn⟩, hd⟩, _⟩, _⟩, h⟩
    simp only [List.map_cons, List.map_nil, List.cons.injEq, and_true] at h
    refine ⟨trivial, ?_⟩
    have := Nat.div_le_self (left.val ρ).val (right.val ρ).val
    simp only [FlatExpr.val, h.1]
    rw [val_natCast_of_lt (by omega)]; omega
  · rintro ⟨⟨⟨⟨⟨⟨⟨_, hl, hr, hz⟩, hn⟩, hd⟩, _⟩, _⟩, h⟩, _⟩
    simp only [List.map_cons, List.map_nil, List.cons.injEq, and_true] at h
    refine ⟨trivial, ?_⟩
    have := Nat.mod_le (left.val ρ).val (right.val ρ).val
    simp only [FlatExpr.val, h.2]
    rw [val_natCast_of_lt (by omega)]; omega
  · rintro ⟨⟨⟨⟨⟨⟨⟨⟨_, hl, hr, hz⟩, hn⟩, hd⟩, _⟩, _⟩, h⟩, _⟩, _⟩
    simp only [List.map_cons, List.map_nil, List.cons.injEq, and_true] at h
    refine ⟨trivial, ?_⟩
    have hpos : 0 < (right.val ρ).val := Nat.pos_of_ne_zero (by rwa [ne_eq, ZMod.val_eq_zero])
    have hlt := Nat.mod_lt (left.val ρ).val hpos
    have hcast : ρ r - d.val ρ + ((2 ^ w : ℕ) : ZMod p) =
        (((left.val ρ).val % (right.val ρ).val + 2 ^ w - (right.val ρ).val : ℕ) : ZMod p) := by
      rw [h.2, hd, Nat.cast_sub (by omega), Nat.cast_add, cast_val]; ring
    simp only [FlatExpr.val]
    rw [hcast, val_natCast_of_lt (by omega)]; omega
  · rintro ⟨⟨⟨⟨⟨⟨⟨⟨⟨_, hl, hr, hz⟩, hn⟩, hd⟩, _⟩, _⟩, h⟩, _⟩, _⟩, _⟩
    simp only [List.map_cons, List.map_nil, List.cons.injEq, and_true] at h
    simp only [FlatExpr.val, h.1, h.2, hn, hd]
    have := Nat.div_add_mod (left.val ρ).val (right.val ρ).val
    have e : (((right.val ρ).val * ((left.val ρ).val / (right.val ρ).val) +
        (left.val ρ).val % (right.val ρ).val : ℕ) : ZMod p) = left.val ρ := by rw [this, cast_val]
    rw [Nat.cast_add, Nat.cast_mul, cast_val] at e
    linear_combination -e

theorem conditional {c t e : FlatM p Z (FlatExpr (ZMod p))}
    (hc : ∀ pre, Cmp sem ρ L (pre ∧ True) c (fun _ => True))
    (ht : ∀ pre, Cmp sem ρ L (pre ∧ True) t (fun _ => True))
    (he : ∀ pre, Cmp sem ρ L (pre ∧ True) e (fun _ => True)) :
    Cmp sem ρ L pre (Flt.conditional c t e : FlatM p Z _) (fun _ => True) := by
  unfold Flt.conditional
  exact Cmp.bind ((hc pre).pre_of fun h => ⟨h, trivial⟩) fun _ => Cmp.bind (newDef _).drop fun _ => Cmp.bind
    ((ht _).pre_of fun h => ⟨h, trivial⟩) fun _ =>
    Cmp.bind ((he _).pre_of fun h => ⟨h, trivial⟩) fun _ => Cmp.bind (newDef _).drop fun _ =>
    Cmp.bind (newDef _).drop fun _ => Cmp.bind (newDef _).drop fun _ =>
    Cmp.bind (newDef _).drop fun _ => Cmp.bind (newDef _).drop fun _ => Cmp.pure fun _ => trivial

theorem powSquares (l : List Bool) (prev : FlatExpr (ZMod p)) :
    Cmp sem ρ L pre (Flt.powSquares l prev : FlatM p Z _) (fun _ => True) := by
  induction l generalizing prev pre with
  | nil => exact Cmp.pure fun _ => trivial
  | cons b l ih => exact Cmp.bind (newDef _) fun _ => Cmp.bind (ih _) fun _ => Cmp.pure fun _ => trivial

theorem powFold (l : List (Bool × FlatExpr (ZMod p))) (acc : FlatExpr (ZMod p)) :
    Cmp sem ρ L pre (Flt.powFold l acc : FlatM p Z _) (fun _ => True) := by
  induction l generalizing acc pre with
  | nil => exact Cmp.pure fun _ => trivial
  | cons t l ih =>
    obtain ⟨b, e⟩ := t
    cases b with
    | true => exact Cmp.bind (newDef _) fun _ => ih _
    | false => exact ih _

theorem powFlat (base : FlatExpr (ZMod p)) (n : ℕ) :
    Cmp sem ρ L pre (Flt.powFlat base n : FlatM p Z _) (fun _ => True) := by
  unfold Flt.powFlat
  refine Cmp.bind (assert _) fun _ => ?_
  generalize Flt.expBits n = bits
  cases bits with
  | nil => exact Cmp.pure fun _ => trivial
  | cons b bits => exact Cmp.bind (powSquares _ _) fun _ => powFold _ _

theorem selFold (l : List (FlatExpr (ZMod p) × FlatExpr (ZMod p))) (rc res : FlatExpr (ZMod p)) :
    Cmp sem ρ L pre (Flt.selFold l rc res : FlatM p Z _)
      (fun t => t.1.val ρ = rc.val ρ + (l.map fun t => t.1.val ρ).sum) := by
  induction l generalizing rc res pre with
  | nil => exact Cmp.pure fun _ => by simp
  | cons t l ih =>
    obtain ⟨c, e⟩ := t
    unfold Flt.selFold
    refine Cmp.bind (newDef _) fun v => (ih _ _).post fun t _ h => ?_
    rw [h]; simp [FlatExpr.val, add_assoc]

theorem selFinish (l : List (FlatExpr (ZMod p) × FlatExpr (ZMod p))) :
    Cmp sem ρ L (pre ∧ (l.map fun t => t.1.val ρ).sum = 1) (Flt.selFinish l : FlatM p Z _) (fun _ => True) := by
  unfold Flt.selFinish
  refine Cmp.bind (selFold _ _ _) fun t => ?_
  obtain ⟨rc, res⟩ := t
  refine Cmp.bind (cond ?_) fun _ => Cmp.pure fun _ => trivial
  rintro ⟨⟨_, h⟩, h1⟩
  simp only at h1
  rw [h1, h]; simp [FlatExpr.val]

/-! ### Bits -/

theorem xorConst (n : ZMod p) (e : FlatExpr (ZMod p)) :
    Cmp sem ρ L pre (Flt.xorBit.xorConst n e : FlatM p Z _) (fun _ => True) := by
  unfold Flt.xorBit.xorConst
  refine Cmp.ite (fun _ => Cmp.bind (define _) fun _ => Cmp.pure fun _ => trivial) fun _ =>
    Cmp.ite (fun _ => Cmp.bind (define _) fun _ => Cmp.pure fun _ => trivial) fun _ => Cmp.panic

theorem xorBit (a b : FlatExpr (ZMod p)) :
    Cmp sem ρ L pre (Flt.xorBit a b : FlatM p Z _) (fun _ => True) := by
  unfold Flt.xorBit
  split
  · exact xorConst _ _
  · exact xorConst _ _
  · refine Cmp.bind useSym fun v => Cmp.bind (direc [_] fun _ => ⟨exec_xor _ _, rfl⟩) fun _ =>
      Cmp.bind (cond ?_) fun _ => Cmp.pure fun _ => trivial
    rintro ⟨_, h⟩
    simp only [List.map_cons, List.map_nil, List.cons.injEq, and_true] at h
    simp only [FlatExpr.val, h]; ring

theorem andConst (n : ZMod p) (e : FlatExpr (ZMod p)) :
    Cmp sem ρ L pre (Flt.andBit.andConst n e : FlatM p Z _) (fun _ => True) := by
  unfold Flt.andBit.andConst
  exact Cmp.ite (fun _ => Cmp.pure fun _ => trivial) fun _ => Cmp.ite (fun _ => Cmp.pure fun _ => trivial) fun _ =>
    Cmp.panic

theorem andBit (a b : FlatExpr (ZMod p)) :
    Cmp sem ρ L pre (Flt.andBit a b : FlatM p Z _) (fun _ => True) := by
  unfold Flt.andBit
  split
  · exact andConst _ _
  · exact andConst _ _
  · exact Cmp.bind (define _) fun _ => Cmp.pure fun _ => trivial

theorem orConst (n : ZMod p) (e : FlatExpr (ZMod p)) :
    Cmp sem ρ L pre (Flt.orBit.orConst n e : FlatM p Z _) (fun _ => True) := by
  unfold Flt.orBit.orConst
  exact Cmp.ite (fun _ => Cmp.bind (define _) fun _ => Cmp.pure fun _ => trivial) fun _ =>
    Cmp.ite (fun _ => Cmp.pure fun _ => trivial) fun _ => Cmp.panic

theorem orTail (a b : FlatExpr (ZMod p)) : Cmp sem ρ L pre (do
      let name ← Flt.useSym
      Flt.emit (.directive [name] .or [a, b])
      Flt.emit (.condition (.add a (.sub b (.ident name))) (.mul a b) .or)
      Pure.pure (.ident name) : FlatM p Z (FlatExpr (ZMod p))) (fun _ => True) := by
  refine Cmp.bind useSym fun v => Cmp.bind (direc [_] fun _ => ⟨exec_or _ _, rfl⟩) fun _ =>
      Cmp.bind (cond ?_) fun _ => Cmp.pure fun _ => trivial
  rintro ⟨_, h⟩
  simp only [List.map_cons, List.map_nil, List.cons.injEq, and_true] at h
  simp only [FlatExpr.val, h]; ring

theorem orBit (a b : FlatExpr (ZMod p)) :
    Cmp sem ρ L pre (Flt.orBit a b : FlatM p Z _) (fun _ => True) := by
  unfold Flt.orBit
  split
  · exact orConst _ _
  · exact orConst _ _
  · exact orTail _ _

theorem boolOr (a b : FlatExpr (ZMod p)) :
    Cmp sem ρ L pre (Flt.boolOr a b : FlatM p Z _) (fun _ => True) := by
  unfold Flt.boolOr
  exact Cmp.bind (assert _) fun _ => orTail _ _

theorem notBit (a : FlatExpr (ZMod p)) :
    Cmp sem ρ L pre (Flt.notBit a : FlatM p Z _) (fun _ => True) := by
  unfold Flt.notBit
  exact Cmp.bind (define _) fun _ => Cmp.pure fun _ => trivial

theorem chBit (a b c : FlatExpr (ZMod p)) :
    Cmp sem ρ L pre (Flt.chBit a b c : FlatM p Z _) (fun _ => True) := by
  unfold Flt.chBit
  refine Cmp.bind useSym fun v => Cmp.bind (direc [_] fun _ => ⟨exec_ch _ _ _, rfl⟩) fun _ =>
    Cmp.bind (cond ?_) fun _ => Cmp.pure fun _ => trivial
  rintro ⟨_, h⟩
  simp only [List.map_cons, List.map_nil, List.cons.injEq, and_true] at h
  simp only [FlatExpr.val, h]; ring

theorem majBit (a b c : FlatExpr (ZMod p)) :
    Cmp sem ρ L pre (Flt.majBit a b c : FlatM p Z _) (fun _ => True) := by
  unfold Flt.majBit
  refine Cmp.bind useSym fun v => Cmp.bind useSym fun bc => Cmp.bind (direc [_] fun _ => ⟨exec_maj _ _ _, rfl⟩) fun _ =>
    Cmp.bind (P := fun _ => ρ bc = b.val ρ * c.val ρ) ?_ fun _ => Cmp.bind (cond ?_) fun _ => Cmp.pure fun _ => trivial
  · refine (emit _ ?_).post ?_
    · intro _ hh
      cases hh with
      | condition hh => exact .condition (hh bc rfl rfl)
    · intro _ _ hg
      cases hg with
      | condition hg => exact hg
  · rintro ⟨⟨_, h⟩, hbc⟩
    simp only [List.map_cons, List.map_nil, List.cons.injEq, and_true] at h
    simp only [FlatExpr.val, h, hbc]; ring

theorem zipBits {f : FlatExpr (ZMod p) → FlatExpr (ZMod p) → FlatM p Z (FlatExpr (ZMod p))}
    (hf : ∀ a b pre, Cmp sem ρ L pre (f a b) (fun _ => True)) (as bs : List (FlatExpr (ZMod p))) :
    Cmp sem ρ L pre (Flt.zipBits f as bs : FlatM p Z _) (fun _ => True) := by
  induction as generalizing bs pre with
  | nil => exact Cmp.pure fun _ => trivial
  | cons a as ih =>
    cases bs with
    | nil => exact Cmp.pure fun _ => trivial
    | cons b bs => exact Cmp.bind (hf _ _ _) fun _ => Cmp.bind (ih _) fun _ => Cmp.pure fun _ => trivial

theorem zipBits3 {f : FlatExpr (ZMod p) → FlatExpr (ZMod p) → FlatExpr (ZMod p) → FlatM p Z (FlatExpr (ZMod p))}
    (hf : ∀ a b c pre, Cmp sem ρ L pre (f a b c) (fun _ => True)) (as bs cs : List (FlatExpr (ZMod p))) :
    Cmp sem ρ L pre (Flt.zipBits3 f as bs cs : FlatM p Z _) (fun _ => True) := by
  induction as generalizing bs cs pre with
  | nil => exact Cmp.pure fun _ => trivial
  | cons a as ih =>
    cases bs with
    | nil => exact Cmp.pure fun _ => trivial
    | cons b bs =>
      cases cs with
      | nil => exact Cmp.pure fun _ => trivial
      | cons c cs => exact Cmp.bind (hf _ _ _ _) fun _ => Cmp.bind (ih _ _) fun _ => Cmp.pure fun _ => trivial

theorem mapBits {f : FlatExpr (ZMod p) → FlatM p Z (FlatExpr (ZMod p))}
    (hf : ∀ a pre, Cmp sem ρ L pre (f a) (fun _ => True)) (as : List (FlatExpr (ZMod p))) :
    Cmp sem ρ L pre (Flt.mapBits f as : FlatM p Z _) (fun _ => True) := by
  induction as generalizing pre with
  | nil => exact Cmp.pure fun _ => trivial
  | cons a as ih => exact Cmp.bind (hf _ _) fun _ => Cmp.bind ih fun _ => Cmp.pure fun _ => trivial

theorem getField (u : FlatU p) : Cmp sem ρ L pre (Flt.getField u : FlatM p Z _) (fun _ => True) := by
  unfold Flt.getField
  split
  · exact Cmp.pure fun _ => trivial
  · split
    · exact Cmp.pure fun _ => trivial
    · exact Cmp.panic

theorem uTail (w mx n : ℕ) (max : ZMod p) (red : Bool) (res : FlatU p) (hm : mx ≤ max.val) :
    Cmp sem ρ L (pre ∧ URel ρ w mx n res) (Flt.uTail w max red res : FlatM p Z _) (fun _ => True) := by
  unfold Flt.uTail
  refine Cmp.ite (fun _ => ?_) fun _ => Cmp.pure fun _ => trivial
  refine Cmp.bind ((getBits _ _ _ _ (pre := True)).pre_of ?_).drop fun bs =>
    Cmp.ite (fun _ => Cmp.pure fun _ => trivial) fun _ => Cmp.bind (getField _) fun _ => Cmp.pure fun _ => trivial
  rintro ⟨_, hu⟩
  refine ⟨trivial, fun _ f hf _ => ?_⟩
  refine lt_of_le_of_lt (((hu.field f hf).2).trans hm) (lt_of_lt_of_le (val_lt_bits max) ?_)
  exact Nat.pow_le_pow_right (by norm_num) (le_max_left _ _)

end Cmp
end Zok
